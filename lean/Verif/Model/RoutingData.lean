import Verif.Model.DataTree

/-! Generated by `tools/gen_network.py`. -/

namespace WG

set_option maxRecDepth 100000

/-- The rows of `/repo/input_data/static_input/routing_order.csv` in the order of the file, 64 to a leaf, each as 22 digits:
`rout_order_arcid` (5), `Lat_index_routorder` (3), `Lon_index_routorder` (3), `outflow_cell_arcid` (5),
`Lat_index_outflowcell` (3), `Lon_index_outflowcell` (3). -/
def routingData : DTree :=
 (.node 1024 (.node 512 (.node 256 (.node 128 (.node 64 (.node 32 (.node 16 (.node 8 (.node 4 (.node 2 (.node 1 (.leaf 101228400000000000000020122850000000000000003012286000000000000000401228700000000000000050122880000000000000006012289000000000000000701229000000000000000080122910000000000000009012292000000000000001001229300000000000000110122940000000000000012012295000000000000001301229600000000000000140122970000000000000015012298000000000000001601229900000000000000170123000000000000000018012301000000000000001901230200000000000000200132150000000000000021013216000000000000002201321800000000000000230132190000000000000024013220000000000000002501326600000000000000260132670000000000000027013268000000000000002801326900000000000000290132700000000000000030013271000000000000003101327200000000000000320132730000000000000033013274000000000000003401327500000000000000350132760000000000000036013277000000000000003701327800000000000000380132790000000000000039013280000000000000004001328100000000000000410132820000000000000042013283000000000000004301328400000000000000440132850000000000000045013286000000000000004601328700000000000000470132880000000000000048013289000490132900006201330300000000000000630133040000000000000064013305000000000000006501330600000000000000660133070000000000000067013308000000000000006801330900000000000000690133100000000000000070014195000000000000007101419600000000000000720141970000000000000073014198000000000000007401419900000000000000750142000000000000000076014201000000000000007701420200000000000)
 (.leaf 7801420300000000000000790142040000000000000080014205000000000000008101420600000000000000830142080000000000000084014209000000000000008501421000000000000000860142110000000000000087014212000000000000008801421300000000000000910142160009001421500094014219000930142180009501422000096014221000990142240000000000000100014225000000000000010101422600000000000001020142270000000000000103014228000000000000010401422900000000000001050142300000000000000106014231000000000000010701423200000000000001080142330000000000000109014235000000000000011001426000000000000001110142610000000000000112014262000000000000011301426300000000000001140142640000000000000115014265000000000000011601426600000000000001170142670000000000000118014268000000000000011901426900000000000001200142700000000000000121014271000000000000012201427200000000000001230142730000000000000124014274000000000000013001428000000000000001310142810000000000000134014284001330142830013501428500136014286001430142930027501529400144014294002760152950014501429500277015296001460142960027801529700147014297001480142980015001430000281015300001510143010028201530100152014302002830153020015301430300284015303001540143040000000000000155014305000000000000015601430600000000000001570143070000000000000158014308000000000000015901430900000000000001600143100000000000000161014311000000000000016201431200000000000001630143130000000000000164014314000000000000016501431500000000000))
 (.node 1 (.leaf 16601431600000000000001670143170000000000000168015183000000000000016901518400000000000001700151860000000000000171015187000000000000017301518900172015188001740151900017501519100176015192000000000000017701519300000000000001820151980000000000000189015205001880152040019001520600191015207001950152110019401521000196015212001970152130019901521500089014214002000152160034401621700201015217003440162170020201521800203015219002040152200009601422100205015221000960142210020601522200207015223002080152240020701522300209015225003530162260021001522600353016226002110152270021201522800214015230002150152310021901523500000000000002200152360000000000000221015237000000000000022201524000000000000002230152420000000000000224015243000000000000022501524400000000000002260152450000000000000227015246000000000000022801524700000000000002290152480000000000000231015250000000000000023201525100000000000002330152520000000000000234015253000000000000023501525400000000000002360152550000000000000237015256000000000000023801525700000000000002390152580000000000000240015259000000000000024101526000000000000002420152610000000000000243015262000000000000024401526300000000000002450152640000000000000246015265000000000000024701526600000000000002480152670000000000000249015268000000000000025001526900000000000002510152700000000000000252015271000000000000025301527200000000000002540152730000000000000268015287002690152880028601530500000000000)
 (.leaf 28701530600000000000002880153070000000000000289015308000000000000029001530900000000000002910153100000000000000292015311000000000000029501531400000000000002960153150000000000000297015316000000000000029801531700000000000002990153180000000000000300015319000000000000030101532000000000000003020153210000000000000303016176000000000000030401617700000000000003050161780000000000000306016179000000000000030701618000000000000003080161810000000000000312016185003110161840031501618800314016187003180161910031701619000319016192003200161930032101619400178015194003220161950017901519500324016197003230161960032501619800181015197003260161990000000000000329016202003280162010033001620300331016204003360162090033501620800337016210005090172100033801621100339016212003510162240000000000000352016225000000000000035401622700000000000003550162280000000000000356016229000000000000035801623100000000000003590162320000000000000360016233000000000000036101623400000000000003620162360000000000000363016237000000000000036401623800000000000003690162430000000000000370016244000000000000037201624600371016245003730162470037401624800376016250003750162490037701625100378016252003800162540037901625300390016264003890162630041001628400266015285004230162970000000000000425016299000000000000042601630000000000000004270163010028201530100428016302002830153020042901630300284015303004300163040028501530400431016305004320163060043301630700000000000)))
 (.node 2 (.node 1 (.leaf 43501630900000000000004360163100000000000000437016311000000000000043801631200293015312004390163130029401531300440016314000000000000044101631500000000000004420163160000000000000443016317000000000000044401631800000000000004450163190000000000000446016320000000000000044701632100000000000004480163220000000000000451016325000000000000045201632600000000000004530163270000000000000454016328000000000000045501632900000000000004560163300000000000000457016331000000000000045801633200000000000004590163330000000000000460016334000000000000046101633500000000000004620163360000000000000463016475000000000000046401647600000000000004650164770000000000000466016478000000000000046701648400000000000004680164850000000000000469016486000000000000047001648700000000000004710171710000000000000472017172000000000000047301717300000000000004740171740000000000000475017175000000000000047601717600000000000004770171780000000000000478017179000000000000047901718000000000000004830171840048201718300484017185000000000000048501718600000000000004860171870000000000000487017188000000000000049501719600494017195004960171970000000000000497017198004980171990050101720200000000000005020172030000000000000503017204000000000000050701720800506017207005080172090069901820900520017221000000000000052101722200000000000005220172230000000000000523017224000000000000052401722500000000000005250172260000000000000526017227000000000000052701722800000000000)
 (.leaf 52801722900000000000005290172300000000000000530017231000000000000053101723200000000000005330172340000000000000534017235000000000000053501723600000000000005370172380000000000000538017239003650162390053901724000366016240005400172410036601624000541017242003670162410054301724400542017243005440172450000000000000550017251005510172520056301726400389016263005830172840041101628500588017289004160162900059501729600422016296006000173010059901730000601017302006020173030060801730900799018309006090173100061001731100613017314000000000000061401731500000000000006150173160000000000000616017317000000000000061701731800000000000006180173190061901732000623017324004500163240062401732500450016324006250173260000000000000626017327000000000000062701732800000000000006280173290000000000000629017330000000000000063001733100000000000006310173320000000000000632017333000000000000063301733400000000000006340173350000000000000635017336000000000000063601733700000000000006370174690000000000000638017471000000000000063901747200000000000006400174730000000000000641017474000000000000064201747500000000000006430174760000000000000644017481000000000000064501748200000000000006460174830000000000000647017488000000000000064801748900000000000006490174900000000000000650017539000000000000065101754000000000000006520175410000000000000653017542000000000000065401754800000000000006550175490000000000000656017550000000000000065701755100000000000))
 (.node 1 (.leaf 65801755200000000000006590181670000000000000660018168000000000000066101816900000000000006620181700000000000000666018174006650181730066701817500668018176006700181780000000000000671018181000000000000067201818200000000000006730181830000000000000674018184000000000000067501818500000000000006760181860000000000000677018187000000000000068001819000679018189006810181910068201819200683018193000000000000068401819400000000000006850181950000000000000686018196000000000000068701819700000000000006880181980000000000000690018200000000000000069101820100000000000006920182020000000000000693018203000000000000069501820500000000000007000182100069901820900701018211005100172110070201821200511017212007030182130092501921400704018214005130172140070501821500706018216007090182190051801721900710018220007110182210071301822300000000000007140182240000000000000715018225000000000000071601822600000000000007170182270000000000000718018228000000000000071901822900000000000007210182310072001823000722018232007230182330072501823500726018236007310182410073001824000732018242009490192410073301824300950019242007340182440095101924300735018245009520192440073601824600953019245007370182470095401924600738018248005470172480073901824900548017249007400182500054801724900741018251005490172500074201825200551017252007540182640056201726300774018284005840172850077901828900589017290007860182960059401729500787018297005960172970078801829800596017297)
 (.leaf 78901829900597017298007900183000059801729900791018301005990173000079301830300794018304008000183100080101831100802018312000000000000080301831300000000000008040183140000000000000805018315000000000000080601831600000000000008070183170000000000000808018318008090183190081001832000000000000008110183210000000000000812018322000000000000081301832300000000000008140183240000000000000815018325000000000000081601832600000000000008170183270000000000000818018328000000000000081901832900000000000008200183300000000000000821018331000000000000082201833200000000000008230183330000000000000824018450000000000000082501845100000000000008260184520000000000000827018453000000000000082801845400000000000008290184550000000000000830018456000000000000083101845700000000000008320184580000000000000833018459000000000000083401846000000000000008350184610000000000000836018462000000000000083701846300000000000008380184680000000000000839018469000000000000084001847000000000000008410184710000000000000842018472000000000000084301847300000000000008440184740000000000000845018475000000000000084601847600000000000008470184770000000000000848018478000000000000084901847900000000000008500184800000000000000851018481000000000000085201848200000000000008530184830000000000000854018484000000000000085501848500000000000008560184860000000000000857018487000000000000085801848800000000000008590184890000000000000860018490000000000000086101851800000000000))))
 (.node 4 (.node 2 (.node 1 (.leaf 86201851900000000000008630185200000000000000864018545000000000000086501854600000000000008660185470000000000000867018548000000000000086801854900000000000008690185500000000000000870018551000000000000087101855200000000000008720185530000000000000873018554000000000000087401855500000000000008750191590000000000000876019160000000000000087701916100000000000008780191660000000000000879019167000000000000088001916800000000000008810191690000000000000882019170000000000000088301917100000000000008860191740088501917300887019175008880191760089101917900892019180008940191820000000000000895019183000000000000089701918600000000000008980191870000000000000899019188000000000000090001918900000000000009010191900000000000000902019191000000000000090301919200000000000009040191930000000000000905019194000000000000090601919500000000000009070191960000000000000910019199009090191980091301920200912019201009140192030091501920400917019206009160192050091801920700697018207009190192080069801820800920019209011440202090092101921001145020210009220192110092301921200928019217000000000000092901921800000000000009310192200000000000000932019221000000000000093301922500000000000009340192260000000000000935019227000000000000093601922800000000000009410192330094001923200947019239007280182380096001925200959019251009720192640075301826300992019284007750182850099601928800778018288009970192890078001829000999019291007810182910100101929300783018293)
 (.leaf 100201929400784018294010030192950078501829501004019296012210202970100501929701221020297010060192980122202029801007019299010080193000101101930300794018304010120193040079501830501013019305010140193060101901931101020019312010280193200000000000001029019321000000000000103001932200000000000010310193230000000000001032019324000000000000103301932500000000000010340193260000000000001035019327000000000000103601939600000000000010370193970000000000001038019398000000000000103901939900000000000010400194000000000000001041019401000000000000104201940200000000000010430194030000000000001044019404000000000000104501940500000000000010460194060000000000001047019407000000000000104801940800000000000010490194090000000000001050019410000000000000105101941100000000000010520194120000000000001053019413000000000000105401941400000000000010550194230000000000001056019424000000000000105701942500000000000010580194260000000000001059019452000000000000106001945300000000000010610194540000000000001062019455000000000000106301945600000000000010640194570000000000001065019458000000000000106601945900000000000010670194600000000000001068019464000000000000106901946500000000000010700194660000000000001071019467000000000000107201947100000000000010730194720000000000001074019473000000000000107501947400000000000010760194750000000000001077019476000000000000107801947700000000000010790194780000000000001080019479000000000000108101948000000000000))
 (.node 1 (.leaf 108201948100000000000010830194820000000000001084019543000000000000108501954400000000000010860195450000000000001087019546000000000000108801954700000000000010890195480000000000001090019549000000000000109101955000000000000010920195510000000000001093019552000000000000109401955300000000000010950195540000000000001096019555000000000000109702015900000000000010980201600000000000001099020161000000000000110002016200000000000011010201660000000000001102020167000000000000110302016800000000000011040201690000000000001109020174011080201730111002017501320021175011120201770111102017601113020178013220211770111402017900892019180011150201800089301918101116020181011170201820112102018600000000000011220201870000000000001123020188000000000000112702019201126020191011280201930112902019401132020197000000000000113802020301137020202011390202040135002120501141020206011400202050114202020701143020208011460202110000000000001147020212000000000000114802021300000000000011490202140000000000001150020215000000000000115102021600000000000011520202170000000000001153020218000000000000116302023900946019238011670202430095001924201169020245009520192440117202024800955019247011760202520095901925101188020264009710192630120802028400993019285012110202870099501928701212020288012130202890121402029000998019290012160202920100001929201217020293014310212940121802029401432021295012190202950143302129601220020296014340212970122302029901436021299)
 (.leaf 122402030001437021300012250203010143802130101226020302014390213020122702030301440021303012280203040144102130401229020305014420213050123002030601014019306012310203070101501930701232020308010160193080123302030901234020310012440203200000000000001245020321000000000000124602032200000000000012470203230000000000001248020324000000000000124902038200000000000012500203830000000000001251020384000000000000125202038500000000000012530203860000000000001255020388000000000000125602038900000000000012570203900000000000001258020391000000000000125902039200000000000012600203930000000000001261020394000000000000126202039500000000000012640203970000000000001265020398000000000000126602039900000000000012670204000000000000001268020401000000000000126902040200000000000012700204030000000000001271020404000000000000127202040500000000000012730204060000000000001274020407000000000000127502040800000000000012760204090000000000001277020410000000000000127802041100000000000012790204120000000000001280020413000000000000128102041400000000000012820204770000000000001283020478000000000000128402047900000000000012850205120000000000001286020513000000000000128702051400000000000012880205420000000000001289020543000000000000129002054400000000000012910205450000000000001292020546000000000000129302054700000000000012940205480000000000001295020549000000000000129602055000000000000012970205510000000000001298020552000000000000129902055300000000000)))
 (.node 2 (.node 1 (.leaf 130002055400000000000013010205550000000000001302020556000000000000130302055700000000000013040205580000000000001305020559000000000000130602114800000000000013070211490000000000001308021150000000000000130902115100000000000013100211520000000000001311021153000000000000131202115400000000000013130211680000000000001314021169000000000000131502117000000000000013160211710000000000001317021172000000000000131802117300000000000013190211740000000000001326021181013250211800132702118201328021183013300211850132902118401331021186000000000000133202118700000000000013330211880000000000001334021189000000000000133502119000000000000013360211910000000000001339021194013380211930134002119501341021196013440211990134302119801345021200013460212010134902120400000000000013510212060000000000001352021207000000000000135302120800000000000013540212090000000000001355021210000000000000135602121100000000000013570212120000000000001358021221000000000000136302122600000000000013680212310115402023001376021239011620202380138002124301166020242013820212450116802024401385021248011710202470138902125201175020251014010212640118702026301420021283012070202830142302128601210020286014240212870142502128801426021289012130202890142802129101215020291014500213130145102131401456021319000000000000145702132000000000000014580213210000000000001459021323000000000000146002132400000000000014610213810000000000001462021382000000000000146302138300000000000)
 (.leaf 146402138400000000000014650213850000000000001466021386000000000000146702138701254020387014690213890146802138801470021390014710213910147302139301472021392014740213940147502139501476021396014770213970147802139800000000000014790213990000000000001480021400000000000000148102140100000000000014820214020000000000001483021403000000000000148402140400000000000014850214050000000000001486021406000000000000148702140700000000000014880214080000000000001489021409000000000000149002141000000000000014910214110000000000001492021513000000000000149302151400000000000014940215150000000000001495021542000000000000149602154600000000000014970215470000000000001498021548000000000000149902154900000000000015000215500000000000001501021551000000000000150202155200000000000015030215530000000000001504021554000000000000150502155500000000000015060215560000000000001507021557000000000000150802155800000000000015090215590000000000001510021562000000000000151102156300000000000015120215640000000000001515021567000000000000151602213600000000000015170221370000000000001518022138000000000000151902213900000000000015200221400000000000001521022150000000000000152202215100000000000015250221540152402215301526022155015270221560152902215800000000000015300221590000000000001531022160000000000000153202216300000000000015330221640000000000001534022165000000000000153502216600000000000015360221670000000000001537022171000000000000153802217200000000000))
 (.node 1 (.leaf 154302217701542022176015440221780176202317901545022179017630231800154602218001547022181015500221840000000000001551022185000000000000155202218600000000000015530221870000000000001554022188000000000000155502218900000000000015560221900000000000001557022191000000000000155802219200000000000015590221930000000000001564022198015630221970156502219901566022200015700222040000000000001571022205017870232050157202220601573022207015750222090000000000001576022210000000000000157702221500000000000015780222160000000000001579022217000000000000158102221900000000000015820222200000000000001583022221000000000000158502222301359021222015860222240136002122301587022225013610212240158802222601362021225015900222280136402122701591022229013650212280159202223001366021229015930222310136702123001594022232013690212320159502223301370021233016010222390137502123801605022243013790212420160702224501381021244016100222480138402124701614022252013880212510162602226401400021263016440222820141902128201648022286016490222870165002228801425021288016520222900142702129001654022292014290212920165602229401657022295016600222980143502129801661022299016620223000166302230101438021301016730223110144802131101674022312014490213120167502231301451021314016760223140167702231501680022318000000000000168102231900000000000016820223200000000000001683022321000000000000168402232200000000000016850223230000000000001686022381000000000000168702238200000000000)
 (.leaf 168802238300000000000016890223840000000000001690022385000000000000169102238600000000000016920223870169302238801696022391016950223900169702239200000000000016990223940169802239301700022395017010223960170202239700000000000017030223980000000000001704022399000000000000170502240000000000000017060224010000000000001707022402000000000000170802240300000000000017090224130000000000001710022551000000000000171102255200000000000017120225530000000000001713022554000000000000171402255500000000000017150225560000000000001716022557000000000000171702255800000000000017180225590000000000001719022560000000000000172102256201720022561017220225630192802356301723022564015130215650172402256501513021565017250225660151402156601726022567000000000000172702256801728022569017290225700000000000001730023133000000000000173102313400000000000017320231350000000000001733023136000000000000173402313700000000000017350231380000000000001736023139000000000000173702314000000000000017380231500000000000001739023151000000000000174002315200000000000017410231530000000000001742023154000000000000174302315500000000000017440231560000000000001745023157000000000000174602315800000000000017470231590174802316001749023161000000000000175002316300000000000017510231640000000000001752023165000000000000175302316600000000000017540231670000000000001755023168000000000000175602316900000000000017570231740000000000001758023175000000000000175902317600000000000)))))
 (.node 8 (.node 4 (.node 2 (.node 1 (.leaf 176002317700000000000017610231780000000000001764023181000000000000176502318200000000000017670231850000000000001768023186000000000000176902318700000000000017700231880000000000001771023189000000000000177502319301774023192017760231940156002219401777023195019830241940178002319801779023197017810231990178202320001785023203017860232040178902320700000000000017900232080000000000001791023209000000000000179202321400000000000017930232150000000000001794023216019980242160179502321701999024217017970232190179602321801798023220020020242200179902322102002024220018000232220158402222201801023223020050242230180202322402006024224018030232250200602422401804023226020080242260180502322701589022227018060232280201002422801807023229020110242290180802323002011024229018090232310201302423101810023232020130242310181102323302014024232018120232340159602223401813023235015970222350181402323601598022236018150232370159902223701817023239016000222380181802324001602022240018200232420160302224101821023243016040222420182302324501606022244018260232480160902224701830023252016130222510184202326401625022263018600232820186102328301864023286016490222870186902329101653022291018750232970165902229701879023301018800233020188102330301882023304018840233060166802230601885023307016690223070188602330801670022308018870233090167102230901888023310016720223100188902331102094024312018900233120209502431301891023313020950243130189202331402096024314)
 (.leaf 189302331502097024315018940233160209802431601895023317000000000000189602331800000000000018970233190000000000001898023320000000000000189902332100000000000019000233820000000000001901023383000000000000190202338400000000000019030233850000000000001904023386000000000000190502338700000000000019060233880000000000001907023389000000000000190802339000000000000019130233950191202339401914023396000000000000191602339800000000000019170234000000000000001918023401000000000000191902340200000000000019200234030000000000001921023404000000000000192202340500000000000019230234060000000000001925023560019240235590192602356100000000000019270235620000000000001929023564000000000000193002356500000000000019310235660000000000001932023567000000000000193302356800000000000019340235690000000000001935023570000000000000193602357200000000000019370235730000000000001938023574000000000000193902357500000000000019400241300000000000001941024131000000000000194202413200000000000019430241330000000000001945024135019440241340194602413601947024137019490241390000000000001950024140000000000000195102414800000000000019520241490000000000001953024155000000000000195402415600000000000019550241570000000000001956024158000000000000195702415900000000000019580241600000000000001959024161000000000000196002416500000000000019610241660000000000001962024167000000000000196302416800000000000019640241690000000000001965024170000000000000196602417100000000000))
 (.node 1 (.leaf 196702417200000000000019680241730000000000001969024177000000000000197002417800000000000019710241790000000000001972024183000000000000197302418400000000000019740241850000000000001975024186000000000000197602418700000000000019780241890000000000001979024190000000000000198002419100000000000019810241920000000000001982024193000000000000198402419501983024194019850241960000000000001986024197021750251970198702419802176025198019880241990198902420001993024204000000000000199402420500000000000019950242060000000000001996024207000000000000199702421500000000000020000242180000000000002001024219000000000000200302422100000000000020040242220000000000002007024225000000000000202002423802019024237020210242390181602323802022024240022070252400202302424101819023241020240242420220902524202025024243022100252430202602424401822023244020270242450182202324402028024246018240232460202902424701824023246020300242480182502324702031024249018270232490203202425001828023250020330242510182802325002034024252018290232510203502425301831023253020360242540183202325402037024255018330232550203802425601834023256020390242570183502325702040024258018360232580204102425901837023259020460242640184102326302065024283018610232830206902428701865023287020710242890186702328902073024291018680232900207502429301871023293020770242950187402329602083024301018780233000208602430401882023304020880243060188302330502089024307022750253080209002430802275025308)
 (.leaf 209102430902276025309020920243100227702531002093024311020940243120209902431700000000000021000243180000000000002101024319000000000000210202432000000000000021030243210000000000002104024323000000000000210502432400000000000021060243870000000000002107024388000000000000210802438900000000000021090243900000000000002113024394021120243930211402439500000000000021150243960000000000002116024402000000000000211702440300000000000021180244040000000000002119024405000000000000212002440600000000000021210244070000000000002122024408000000000000212302440900000000000021240245240000000000002125024558000000000000212602455900000000000021270245600000000000002128024566000000000000213002456800000000000021310245690000000000002132025120000000000000213302512100000000000021340251220000000000002135025123000000000000213602512400000000000021370251250000000000002138025126000000000000213902512700000000000021400251280000000000002141025134000000000000214202513500000000000021430251360000000000002144025137000000000000214502513800000000000021460251390000000000002147025147000000000000214802514800000000000021490251490000000000002150025150000000000000215102516700000000000021520251680000000000002153025169000000000000215402517000000000000021550251710000000000002156025172000000000000215702517700000000000021580251780000000000002159025179000000000000216002518000000000000021650251870216402518602166025188019770241880216702518900000000000)))
 (.node 2 (.node 1 (.leaf 216802519000000000000021710251930217002519202172025194021730251950217702519900000000000021780252000000000000002179025201000000000000218002520200000000000021810252030000000000002182025215000000000000218302521600000000000021840252170000000000002185025218000000000000218602521900000000000021870252200000000000002188025221000000000000218902522200000000000021900252230000000000002191025224000000000000219202522500000000000021930252260000000000002196025229020100242280219802523102012024230021990252320201302423102200025233020140242320220102523402015024233022020252350201602423402203025236024060262360220402523702018024236022050252380240802623802206025239024090262390220802524102411026241022110252440241402624402212025245024140262440221302524602416026246022140252470241702624702215025248024180262480221602524902419026249022170252500242002625002218025251024200262500221902525202421026251022200252530242302625302221025254024240262540222202525502424026254022230252560242502625502224025257024260262560222502525802427026257022260252590242802625802227025260020420242600222802526102043024261022290252620204402426202250025283020640242820225402528702068024286022560252890207002428802258025291020720242900226802530102082024300022710253040208502430302281025314020960243140228202531502283025316022870253200000000000002288025321000000000000228902532200000000000022900253230000000000002291025388000000000000229202538900000000000)
 (.leaf 229302539000000000000022940253910000000000002295025392000000000000229602539300000000000022970253940000000000002298025395000000000000229902539600000000000023000254020000000000002301025403000000000000230202540400000000000023030254050000000000002304025406000000000000230502540700000000000023060254970000000000002307025524000000000000230802553800000000000023090255390000000000002310025551000000000000231102555200000000000023120255620000000000002313025563000000000000231602556602315025565023170255670212902456702320025570000000000000232202611700000000000023230261180000000000002326026121023250261200232702612200000000000023280261230000000000002329026124000000000000233002612500000000000023310261260000000000002332026127000000000000233302613000000000000023340261310000000000002335026132000000000000233602614000000000000023370261410000000000002338026142000000000000233902615000000000000023400261510000000000002341026156000000000000234202615700000000000023430261580000000000002344026159000000000000234502616000000000000023460261620000000000002347026163000000000000234802616600000000000023490261670000000000002350026168000000000000235102616900000000000023520261700000000000002353026171000000000000235402617200000000000023550261730000000000002356026174000000000000235702617500000000000023580261760000000000002359026177000000000000236002617800000000000023610261790000000000002362026180000000000000236302618100000000000))
 (.node 1 (.leaf 236402618200000000000023650261830259002718202366026184021610251830236702618502162025184023680261860259502718702369026187025950271870237002618802371026189023720261900237302619102374026192023750261930237602619402603027195023770261950260302719502378026196000000000000237902619702605027197023800261980260502719702381026199023820262000238402620200000000000023850262030000000000002386026204000000000000238702621700000000000023880262180000000000002389026219000000000000239002622000000000000023910262210000000000002392026222000000000000239602622602395026225023970262270261802722702398026228026190272280239902622902195025228024000262300219702523002401026231021970252300240302623302402026232024040262340262502723402405026235026260272350241502624502635027244024220262520264302725202430026260024290262590243102626102652027261024320262620265302726202433026263022300252630243402626402231025264024350262650223202526502436026266022330252660245302628302249025282024590262890225502528802462026292022590252920246402629402262025295024710263010226702530002474026304022700253030247502630502272025305024760263060227302530602477026307024780263080248602631600000000000024870263170000000000002488026318000000000000248902631900000000000024900263200000000000002491026321000000000000249202632200000000000024930263230000000000002494026391000000000000249502639200000000000024960263930000000000002497026394000000000000249802641000000000000)
 (.leaf 249902649100000000000025000264920000000000002501026493000000000000250202649400000000000025030264950000000000002504026496000000000000250502649700000000000025060265490000000000002507026550000000000000250802655100000000000025090265520000000000002510026554000000000000251602656602515026565025170265670231802556802518026568023180255680251902656902319025569025200265700232102557102521026571025220265720252502657500000000000025270265770000000000002528026578000000000000253002658000000000000025320265820000000000002533026583000000000000253402665700000000000025350266580000000000002536027114000000000000253702711500000000000025380271160000000000002539027117000000000000254102711902540027118025420271200000000000002543027121000000000000254402712200000000000025450271240000000000002546027125000000000000254702712600000000000025480271270000000000002549027128000000000000255002712900000000000025510271300000000000002552027131000000000000255302713200000000000025540271330000000000002555027134000000000000255602713900000000000025580271410255702714002559027142025600271430256102715100000000000025620271520000000000002563027153000000000000256402715400000000000025650271550000000000002566027156000000000000256702715700000000000025680271580000000000002571027161025700271600257202716202573027163025740271640000000000002575027167000000000000257602716800000000000025770271690000000000002578027170000000000000257902717100000000000))))
 (.node 4 (.node 2 (.node 1 (.leaf 258002717200000000000025810271730000000000002583027175025820271740258402717602585027177025870271790000000000002588027180000000000000258902718100000000000025910271830000000000002592027184000000000000259302718500000000000025940271860000000000002596027188000000000000259702718900000000000026000271920000000000002602027194000000000000260402719600000000000026060271980000000000002607027199000000000000260802720000000000000026090272010000000000002610027202000000000000261102722000000000000026120272210000000000002613027222000000000000261402722300000000000026150272240000000000002616027225000000000000261702722600000000000026200272290000000000002621027230000000000000262202723100000000000026240272330000000000002627027236000000000000263602724502856028244026400272490263902724802642027251026410272500265002725902871028259026550272640265402726302656027265028770282650265702726602877028265026580272670243702626702659027268024380262680266102727002440026270026740272830245202628202680027289024580262880268302729202461026291026850272940246502629502692027301024700263000269302730202472026302026950273040269602730502703027312024820263120270502731402484026314027060273150270702731602708027317000000000000270902731800000000000027100273190000000000002711027320000000000000271202732100000000000027130273220000000000002714027410000000000000271502748000000000000027170274820000000000002718027483000000000000271902748400000000000)
 (.leaf 272002748500000000000027210274860000000000002722027487000000000000272302748800000000000027240274890000000000002725027490000000000000272602749100000000000027270274920000000000002728027493000000000000272902749400000000000027300274950000000000002731027496000000000000273202749700000000000027330275460000000000002734027547000000000000273502754800000000000027360275490000000000002737027550000000000000273802755100000000000027390275520000000000002740027553000000000000274102755400000000000027420275550000000000002743027556000000000000274402755700000000000027450275580000000000002747027560000000000000274802756100000000000027600275730252302657302761027574027620275750276302757602526026576027640275770276502757802766027579027670275800276802758102531026581027690275820277002758302771027584027720275850277302758600000000000027740276350000000000002776027637000000000000277702763800000000000027780276420000000000002779027643000000000000278002811400000000000027810281150000000000002782028117000000000000278302811800000000000027840281190000000000002785028120000000000000278602812100000000000027870281220000000000002788028123000000000000278902812400000000000027900281250000000000002791028126000000000000279202812700000000000027930281280000000000002796028131027950281300279702813202798028133028010281360000000000002802028140000000000000280502814302804028142028060281440000000000002807028145000000000000280802814600000000000))
 (.node 1 (.leaf 280902814702810028148028110281520000000000002812028153000000000000281302815400000000000028140281550000000000002815028156000000000000281602815700000000000028170281580000000000002818028159000000000000282102816202820028161028220281630282302816402824028167000000000000282502816900000000000028260281700000000000002830028178028290281770283102817902832028180028330281810000000000002835028183000000000000283602818500000000000028370281890000000000002839028191000000000000284002819200000000000028410281930000000000002842028194000000000000284402819600000000000028460281980000000000002847028199000000000000284802820100000000000028490282250000000000002850028226000000000000285102823900000000000028520282400000000000002853028241000000000000285402824200000000000028550282430000000000002857028245030880292440286102824902860028248028630282510309402925002870028258031010292570287302826102872028260028750282630287402826202876028264031080292640287902826702878028266028800282680311102926702883028271026620272710289502828302673027282029010282890267902728802904028292026820272910290602829402686027295029130283010269102730002915028303026940273030291602830402694027303029170283050269602730502918028306026980273070292302831102702027311029260283140292702831502928028316029290283170293002831802931028319029340284770000000000002935028478000000000000293602847900000000000029370284800000000000002938028481027160274810293902848202716027481)
 (.leaf 294002848303181029483029410284840000000000002942028485000000000000294302848600000000000029440284870000000000002945028488000000000000294602848900000000000029470284900000000000002948028491000000000000294902849200000000000029510285410000000000002952028542000000000000295402854400000000000029550285450000000000002958028548029570285470295902854902960028550029620285520000000000002963028553000000000000296402855400000000000029650285550296602855602974028564029730285630297502856502976028566029780285680297702856702981028571029800285700298202857202759027572029840285740298302857302988028578029870285770298902857902990028580029960285860000000000002997028587000000000000299802863100000000000029990286320000000000003000028634000000000000300202863603001028635030030286370277502763603004028638032450296380300502863900000000000030060286400000000000003008028642030070286410300902864303010028644030110286450000000000003012028646000000000000301302864700000000000030140286480000000000003015028649000000000000301602865000000000000030170286520000000000003018029106000000000000301902912400000000000030200291250000000000003021029126000000000000302202912700000000000030230291280000000000003024029129000000000000302502913000000000000030260291310000000000003027029132000000000000302802913300000000000030290291340000000000003030029135000000000000303102913600000000000030330291380303202913703034029139000000000000303502914003279030140)))
 (.node 2 (.node 1 (.leaf 303602914103280030141030370291420000000000003038029143032810301430303902914400000000000030400291450328303014503041029146030420291470304302914800000000000030440291500000000000003045029151000000000000304602915200000000000030470291580000000000003048029159000000000000304902916000000000000030500291610000000000003051029162000000000000305202916300000000000030530291640000000000003054029166000000000000305702916903056029168030580291700305902917103062029176030610291750306502917903064029178030660291800306702918103069029183030680291820307002918403071029185030760291900307502918903077029191028380281900307802919203313030193030790291930331303019303080029194033140301940308102919502843028195030820291960331603019603083029197028450281970308402919803085029199030860292000000000000003087029243000000000000308902924500000000000031020292580333403025703104029260031030292590310602926203105029261031070292630334003026303109029265033420302650311302926903112029268031150292710311402927003127029283028940282820313302928902900028288031360292920290302829103138029294029070282950314002929602908028296031420292980291002829803143029299029110282990314402930002912028300031450293010291202830003146029302029140283020314702930302914028302031480293040338103030403149029305033810303040315002930602919028307031510293070291902830703152029308029200283080315302930902921028309031540293100292202831003155029311033880303110315602931202924028312)
 (.leaf 315702931303158029314031620293180000000000003163029319000000000000316402932000000000000031650293210000000000003166029322000000000000316702932300000000000031680293240000000000003169029471000000000000317002947200000000000031710294730000000000003172029474000000000000317402947603173029475031750294770293302847603176029478034090304780317702947903411030480031780294800317902948103180029482000000000000318202948400000000000031830295230000000000003184029524000000000000318502953400000000000031860295350000000000003187029536000000000000318902953800000000000031910295400319002953903192029541029500285400319302954203194029543031950295440295302854303196029545029560285460319702954602956028546031980295470319902954803214029563032130295620321702956603216029565032180295670345203056703219029568034530305680322002956903221029570032240295730322302957203229029578032280295770323002957903463030578032310295800346503058003232029581032330295820323402958303235029584032370295860000000000003238029587000000000000323902963100000000000032400296330000000000003243029636032420296350324402963703474030638032480296410347703064103249029642034780306420325002964303479030643032510296440000000000003252029645000000000000325302964600000000000032540296470000000000003255029648000000000000325602964900000000000032570296500000000000003258029652000000000000325902965300000000000032600296540000000000003261029655000000000000326202965600000000000))
 (.node 1 (.leaf 326302965700000000000032640296580000000000003265029659000000000000326602966000000000000032670296610000000000003268030128000000000000326903012900000000000032700301310000000000003271030132000000000000327303013403272030133032740301350327503013603276030137000000000000327703013800000000000032780301390000000000003282030144000000000000328403014600000000000032850301590000000000003286030160000000000000328703016100000000000032880301620000000000003289030167000000000000329003016800000000000032910301690000000000003292030170000000000000329303017100000000000032940301720000000000003295030175000000000000329603017600000000000032970301770000000000003298030178000000000000329903017900000000000033000301800000000000003301030181000000000000330203018200000000000033030301830000000000003304030184000000000000330503018500000000000033060301860000000000003307030187000000000000330803018800000000000033090301890000000000003310030190000000000000331103019100000000000033120301920000000000003315030195000000000000331703019700000000000033180301980000000000003319030199000000000000332003020000000000000033210302440000000000003322030245000000000000332303024600000000000033240302470000000000003335030258035410312570333803026103337030260033390302620354603126203341030264035470312630334803027103347030270033490302720311602927203350030273031170292730335103027403118029274033600302830312602928203366030289031320292880336903029203135029291)
 (.leaf 337203029503139029295033750302980337603029903377030300035840313000337803030103585031301033790303020358603130203380030303035870313030338203030503589031305033830303060359003130603384030307035910313070338503030803592031308033860303090359303130903387030310033880303110338903031203390030313033910303140359803131403392030315033930303160339403031700000000000033950303180000000000003396030319000000000000339703032000000000000033980303210000000000003399030322000000000000340003032300000000000034010303980000000000003402030471000000000000340503047403404030473034060304750340703047603408030477034090304780341003047900000000000034120304810000000000003413030518000000000000341403051900000000000034150305300000000000003416030531000000000000341703053200000000000034180305330000000000003419030534000000000000342103053603420030535034220305370362703153603423030538031880295370342903054403428030543034300305450343103054603438030553034370305520343903055403646031555034400305550344103055603445030560034460305610345903057403460030575034610305760366803157703462030577036690315780346703058200000000000034690305840000000000003470030585000000000000347103063500000000000034720306360000000000003473030637000000000000347503063900000000000034800306440000000000003481030645000000000000348203064600000000000034830306470000000000003484030654000000000000348503065500000000000034860306560000000000003487030657000000000000348803065800000000000))))))
 (.node 16 (.node 8 (.node 4 (.node 2 (.node 1 (.leaf 348903065900000000000034900306600000000000003491030661000000000000349203111000000000000034930311110000000000003494031112000000000000349503111300000000000034960311140000000000003497031115000000000000349803111600000000000035000311180000000000003501031119000000000000350303112100000000000035050311230000000000003506031124000000000000350703112500000000000035080311320000000000003509031133000000000000351003113400000000000035110311350000000000003512031136000000000000351303116300000000000035140311640000000000003515031170000000000000351603117100000000000035180311730000000000003519031174000000000000352003118300000000000035210311840000000000003522031185000000000000352303118600000000000035240311870000000000003525031188000000000000352603118900000000000035270311950000000000003528031196000000000000352903124500000000000035300312460000000000003531031247000000000000353503125103534031250035360312520375303225103537031253037540322520353803125403755032253035430312590354203125803544031260037620322600356703128303359030282035730312890336503028803576031292033680302910357903129503371030294035800312960337303029603581031297033730302960358203129803374030297035830312990358403130003588031304035890313050359403131003813032311035960313120381403231203600031316000000000000360103131700000000000036020313180000000000003603031319000000000000360403132000000000000036050313210000000000003606031397000000000000360703139800000000000)
 (.leaf 360803146900000000000036090314700000000000003611031472036100314710361203147303613031474036140314750361503147603617031478000000000000361803152400000000000036190315250000000000003620031529000000000000362103153000000000000036220315310000000000003623031532000000000000362403153300000000000036300315390362903153803631031540038510325390363203154103633031542036340315430342703054203638031547036370315460364103155003640031549036420315510364303155203645031554036460315550365203156103446030561036540315630344803056303656031565036550315640366103157003660031569036620315710366303157203665031574036640315730367203158100000000000036730315830000000000003674031584000000000000367503158500000000000036760315860000000000003677031631000000000000367803164000000000000036790316410000000000003680031642000000000000368103164300000000000036820321110000000000003685032114036840321130368603211503925033115036870321160392503311503688032117034990311170368903211803690032119036920321210000000000003693032122035040311220369403212303504031122036950321240369603212503699032128000000000000370003214300000000000037010321440000000000003702032146000000000000370303214700000000000037040321480000000000003705032149000000000000370603215000000000000037070321570000000000003708032158000000000000370903215900000000000037100321600000000000003711032161000000000000371203216200000000000037130321630000000000003714032164000000000000371503216500000000000))
 (.node 1 (.leaf 371603216800000000000037220321740372103217303723032175000000000000372403217600000000000037250321770000000000003726032178000000000000372703217900000000000037280321830000000000003729032184000000000000373103218600000000000037320321870000000000003733032188000000000000373403218900000000000037350321920000000000003736032193000000000000373803219500000000000037390321960000000000003740032197000000000000374103219800000000000037420321990000000000003743032200000000000000374403220100000000000037470322040000000000003748032246000000000000374903224700000000000037600322580375903225703761032259040100332590377403227203773032271037750322730355703127303776032274035580312740377703227503559031275037780322760356003127603785032283035660312820379103228903572031288037930322910357403129003794032292035750312910379703229503578031294037980322960404803329703799032297038000322980380803230603807032305038090323070381003230803812032310000000000000381503231303816032314038190323170000000000003820032318000000000000382103231900000000000038220324670000000000003823032468000000000000382603247103825032470038270324720407703347303828032473038290324740383103247600000000000038320325200000000000003833032521000000000000383403252200000000000038350325230000000000003837032525000000000000383803252600000000000038400325280000000000003841032529000000000000384203253000000000000038430325310000000000003845032533000000000000384903253703848032536)
 (.leaf 385003253803851032539038520325400385303254103856032544038550325430385703254504116033546038620325500386103254903867032555041250335550386803255603647031556038710325590387003255803872032560038730325610388703257500000000000038880325760000000000003889032577000000000000389103258000000000000038920325810000000000003894032583000000000000389503258400000000000038960325850000000000003897032586000000000000389803258800000000000038990325890000000000003900032590000000000000390103259100000000000039020325920000000000003903032593000000000000390403259400000000000039050325950000000000003906032606000000000000390703260700000000000039080326080000000000003911032631000000000000391203263200000000000039130326400000000000003914032641000000000000391503264200000000000039160326430000000000003917032644000000000000391803264500000000000039190326460000000000003920033110000000000000392803311803927033117039320331220393103312103933033123039340331240393503312500000000000039400331300000000000003941033131000000000000394203314300000000000039430331440000000000003944033145000000000000394603314700000000000039470331480000000000003948033149000000000000394903315000000000000039500331550000000000003951033157000000000000395203315800000000000039550331610395403316003956033162039570331630395803316400000000000039590331650000000000003960033166000000000000396303317003962033169039640331710371903217103965033172042500341730396603317304250034173)))
 (.node 2 (.node 1 (.leaf 396703317404250034173039680331750396903317603971033181000000000000397403318403973033183039750331850373003218503976033186039770331870397803318800000000000039790331890000000000003980033190000000000000398303319303982033192039840331940373703219403985033195042690341960398603319603987033197039880331980000000000003990033200039890331990399103320104273034200039920332020374503220203993033203037460322030399403320403995033205039960332060000000000003997033207000000000000399803324700000000000039990332480000000000004001033250040000332490400303325204002033251040050332540400403325304022033271040210332700402303327204306034272040240332730430603427204025033274043070342730402603327504308034274040270332760430903427504028033277037790322770402903327803780032278040300332790378103227904031033280037820322800403203328103783032281040330332820378403228204034033283037840322820403503328403786032284040360332850378603228404037033286037870322850403803328703788032286040390332880378903228704040033289037900322880404103329003792032290040420332910379203229004043033292043270342930404403329303795032293040450332940379603229404046033295040470332960405103330003802032300040520333010380303230104053033302038040323020405403330304055033304040580333070000000000004059033308000000000000406003330900000000000040610333100000000000004062033311000000000000406303331200000000000040640333130000000000004065033314000000000000406603331500000000000)
 (.leaf 406703331600000000000040680333170000000000004069033318000000000000407003346600000000000040710334670000000000004074033470040730334690407503347104076033472040780334740000000000004079033499000000000000408003350000000000000040810335010000000000004082033502000000000000408303350300000000000040840335080000000000004085033509000000000000408603351000000000000040870335110000000000004088033512000000000000408903351800000000000040900335200000000000004093033523040920335220409403352404095033525040960335260409503352504097033527038390325270409803352804099033529041000335300438303453004104033534041030335330411303354304397034544041140335440411503354504129033559041280335580413003356004131033561041320335620441403456104134033564041330335630413503356504136033566041370335670388003256804138033568038800325680413903356903882032570041400335700414103357104143033573000000000000414403357400000000000041450335750000000000004146033576000000000000414703357700000000000041480335780000000000004149033579000000000000415103358104150033580041520335820443603458304153033583038930325820416203359204161033591041630335930416403359404167033597000000000000416803359800000000000041690335990000000000004170033600000000000000417103360600000000000041720336070000000000004173033608000000000000417403360903909032609041750336100391003261004176033611000000000000417803361300000000000041810336160000000000004182033617000000000000418303361800000000000))
 (.node 1 (.leaf 418403363900000000000041850336400000000000004186033641000000000000418703364200000000000041880336430000000000004189033644000000000000419003364500000000000041910336460000000000004192033647000000000000419303411000000000000041980341150419703411404200034117041990341160420103411804202034119042030341200393003312004204034121000000000000420503412200000000000042060341230000000000004207034124000000000000420803412500000000000042090341260393603312604210034127039370331270421103412803938033128042120341290393903312904216034133000000000000421703413400000000000042180341350000000000004219034136000000000000422003413700000000000042230341400000000000004224034141000000000000422503414300000000000042270341450422603414404228034146039450331460422903414704230034148042310341490000000000004232034154000000000000423303415500000000000042340341560000000000004235034157000000000000423603415800000000000042380341600423703415904239034161042400341620424103416304240034162042420341640424303416504244034166000000000000424503416800000000000042460341690000000000004247034170042480341710425103417400000000000042520341750000000000004253034176000000000000425403418000000000000042560341820425503418104257034183042580341840426303419004262034189042660341930426503419204267034194042680341950427203419900000000000042740342010000000000004275034202000000000000427603420300000000000042770342040000000000004278034205000000000000427903420600000000000)
 (.leaf 428103424700000000000042820342480000000000004283034249000000000000429103425704290034256042920342580400803325704293034259040090332580429403426004010033259042950342610401103326004296034262040120332610429703426304014033263042980342640458503526404299034265045850352640430003426604587035266043010342670458803526704302034268045880352670430303426904590035269043040342700459103527004305034271045920352710431003427604309034275043120342780431103427704313034279046000352790431403428004601035280043150342810460203528104316034282046020352810431703428304603035282043180342840460403528304319034285046060352850432003428604608035287043210342870460803528704322034288046090352880432303428904610035289043240342900432503429104326034292046140352930432803429404615035294043290342950461603529504330034296046160352950433103429704332034298043330342990433403430004336034302043370343030433903430500000000000043400343060000000000004341034307000000000000434203430800000000000043430343090000000000004344034310000000000000434503431100000000000043460343120000000000004347034313000000000000434803431400000000000043490343150000000000004350034464000000000000435403446804353034467043550344690435603447004359034498000000000000436003449900000000000043610345000000000000004363034502000000000000436503450400000000000043660345050000000000004367034508000000000000436803450900000000000043690345100000000000004370034511000000000000437103451500000000000))))
 (.node 4 (.node 2 (.node 1 (.leaf 437203451700000000000043730345180000000000004376034523043750345220437703452404378034525043880345350410503353504392034539043910345380439303454004394034541044010345480440003454704402034549044030345500440403455104403034550044060345530440503455204407034554044080345550441803456504417034564044190345660442003456704424034571000000000000443203457904433034580044420345890415903358904443034590044440345910445003459704449034596044510345980445203459904453034600000000000000445403460100000000000044550346020000000000004457034604000000000000445803460500000000000044640346110446303461004465034612041770336120446603461304179033614044670346140418003361504468034615044690346160447103461800000000000044730346420000000000004474034643000000000000447503464400000000000044760346450000000000004477034646000000000000447803464700000000000044790346480000000000004480034649000000000000448103510800000000000044820351090000000000004490035117041990341160449103511804492035119044930351200000000000004494035121000000000000449503512200000000000044970351240449603512304503035130042130341300450403513104215034132045050351320421503413204506035133000000000000451103513804510035137045120351390422103413804514035141045130351400451603514300000000000045190351460451803514504520035147042300341480452103514804522035149045230351560000000000004524035157000000000000452503515800000000000045270351600452603515904528035161048310361610452903516204240034162)
 (.leaf 453003516304833036163045310351640483303616304532035165045330351660453403516700000000000045360351700453503516904537035171045380351720454403518504543035184045450351860454603518704547035189000000000000455103519304550035192045520351940455303519504558035200000000000000455903520100000000000045640352060456303520504565035207042800342070456603520800000000000045670352090000000000004568035210000000000000456903524800000000000045700352490000000000004571035250000000000000457203525100000000000045730352520000000000004577035256045760352550457803525704887036257045790352580488803625804580035259048890362590458103526004889036259045820352610489103626104583035262048920362620458403526304893036263045860352650489503626504589035268048980362680459303527204902036272045940352730490303627304595035274049030362730459603527504905036275045980352770490603627604599035278049070362770460503528404914036284046070352860460803528704611035290049200362900461703529604927036297046180352970492703629704619035298049280362980462003529904929036299046210353000462203530104623035302049320363020462403530300000000000046250353040000000000004626035305046270353060463103531000000000000046320353110000000000004633035312000000000000463403531300000000000046350353140000000000004636035315000000000000463703546300000000000046410354670464003546604642035468049540364690464303546904644035470046480354990464703549804650035501046490355000465103550204364034503))
 (.node 1 (.leaf 465203550304653035504046550355090000000000004656035510000000000000465703551100000000000046580355130000000000004659035514000000000000466003551500000000000046610355160000000000004662035517000000000000466303551800000000000046640355190000000000004666035521000000000000466803552300000000000046710355260467003552504673035528046740355290468203553704681035536046870355420468803554304690035545046890355440469103554604692035547046960355510469503555004699035554046980355530470003555504701035556047040355590470303555804705035560047060355610470803556304709035564047150355700471403556904716035571047170355720471903557404720035575047210355760472203557704723035578047220355770472703558204726035581047280355830443703458404729035584044380345850473003558504731035586047360355910473503559004737035592047380355930474103559604740035595047470356020474603560104748035603044560346030475203560704751035606047530356080475403560904755035610047560356110475703561204756035611047630356180000000000004764035638000000000000476503563900000000000047660356400000000000004767035641044720346410476803564204472034641047690356430477003564404776035650000000000000477703565100000000000047780356520000000000004779035653000000000000478003565400000000000047810356550000000000004782035656000000000000478303565700000000000047840356580000000000004785035659000000000000478603600100000000000047870361080000000000004788036109000000000000478903611000000000000)
 (.leaf 479403611504793036114047950361160448903511604796036117044890351160479703611800000000000047980361190000000000004799036121000000000000480003612200000000000048010361230000000000004803036125048020361240480503612704804036126048090361310480803613004810036132048110361330481203613404507035134048130361350514003713504817036139048160361380481803614004819036141048200361420451503514204825036147048240361460482603614805153037148048270361490482803615004829036159000000000000483203616204833036163048340361640000000000004835036165000000000000483603616600000000000048370361680000000000004838036169000000000000483903617000000000000048400361710000000000004841036172000000000000484203617900000000000048460361830484503618204847036184045430351840484803618505172037185048490361860485003618704851036188000000000000485203618900000000000048580361950485703619404859036196045550351970486003619704555035197048620361990486103619804863036200045570351990486403620104560035202048650362020456003520204866036203000000000000486803620504867036204048690362060487003620704872036209000000000000487403621100000000000048750362120000000000004876036214000000000000487703621500000000000048780362480000000000004879036249000000000000488003625000000000000048810362510000000000004882036252000000000000488303625300000000000048840362540000000000004885036255000000000000488603625600000000000048940362640489303626304897036267052230372670490103627105227037271)))
 (.node 2 (.node 1 (.leaf 490403627405230037274049130362830523903728304934036304000000000000493503630500000000000049360363060000000000004937036307000000000000493803630800000000000049390363090494003631004941036311052660373100494203631204943036313049450363150000000000004946036316000000000000494703646200000000000049480364630000000000004949036464000000000000495103646604950036465049520364670528003746604953036468049540364690496003649904959036498049610365000496203650104966036505000000000000496703650600000000000049680365070000000000004969036508000000000000497003650904971036510049720365120000000000004973036513000000000000497403651400000000000049750365150000000000004978036518049770365170497903651904980036520049810365210466703552204983036523000000000000498403652400000000000049850365250000000000004988036528049890365290499203653204991036531049970365370468303553805001036541050000365400500203654205337037543050030365430468903554405004036544046890355440500503654504689035544050060365460533903754505007036547053420375480500803654805342037548050120365520501103655105013036553053470375530501703655705018036558050280365680502703656705030036570050290365690503103657105364037570050450365850504403658405046036586050470365870505103659105050036590050520365920538503759105053036593053860375920505403659405388037594050550365950505603659605057036597047420355970507103661105072036612050760366160507703661705078036618000000000000507903662400000000000)
 (.leaf 508003662500000000000050810366260000000000005082036631000000000000508303663200000000000050840366340000000000005085036635000000000000508603663600000000000050870366370000000000005092036643050910366420509303664405094036645051000366510000000000005102036653051010366520510303665405104036655051090366600000000000005110037000000000000000511103700100000000000051120370020000000000005113037003000000000000511403700400000000000051150370450000000000005116037046000000000000511703704700000000000051180370480000000000005119037049000000000000512003705000000000000051210371120000000000005122037113000000000000512303711400000000000051240371150000000000005125037116000000000000512603711700000000000051270371180000000000005128037123000000000000512903712400000000000051300371250000000000005131037126000000000000514203713705141037136051430371380481503613705144037139051450371400514603714105147037142051520371470515103714605156037151000000000000515703716100000000000051580371620000000000005159037163000000000000516003716700000000000051630371700516403717105167037180000000000000516803718100000000000051690371820000000000005170037183000000000000517303718605172037185051740371870000000000005175037188000000000000517603718900000000000051830371960518203719505184037197055440381970518503719805545038198051940372070519303720605195037208051960372090519703721000000000000051980372110000000000005199037212000000000000520003721300000000000))
 (.node 1 (.leaf 520103721400000000000052020372150000000000005203037216000000000000520403721700000000000052050372490000000000005206037250000000000000520703725100000000000052080372520000000000005209037253000000000000521003725400000000000052110372550000000000005212037256000000000000521503725905214037258052160372600558003826005217037261055810382610521903726305218037262052200372640558303826305222037266052210372650522603727005590038270052290372730559303827305238037282056020382820524103728505240037284052420372860491603628605243037287049180362880524403728804919036289052450372890492003629005247037291049220362920525003729405251037295052530372970492603629605254037298052550372990525703730104931036301052580373020525903730305261037305056260383060526203730605263037307052650373090000000000005269037313052680373120527003731405271037315052720373160000000000005273037343000000000000527403741000000000000052750374110000000000005276037415000000000000527703746300000000000052790374650000000000005283037469052820374680528403747005285037471052870374930000000000005288037494000000000000529103749705290037496052930374990529203749805294037500052950375010529903750500000000000053010375070530003750605302037508053030375090530603751200000000000053080375140000000000005309037515000000000000531103751704976036516053120375180568703851805313037519056870385180531503752105314037520053160375220498203652205317037523053180375240531903752500000000000)
 (.leaf 532303752905324037530053270375330532803753405334037540053330375390534303754905718038549053440375500571903855005349037555053500375560535503756105356037562053650375710536403757005366037572050320365720537303757905039036579053790375850537803758405380037586053810375870538403759005383037589053890375950538803759405390037596053910375970539203759805393037599053960376020506303660305397037603050630366030540103760705068036608054020376080506803660805403037609054040376100540503761105779038610054060376120540703761305409037615054080376140541003761605075036615054110376170541203761805417037626054180376270541903762800000000000054220376310542103763005429037638000000000000543403764305433037642054350376440509403664505436037645050950366460543703764605096036647054380376470509703664805440037649050990366500544103765005099036650054420376510509903665005443037652054440376530544903765805108036659054500376590545103766005453037662000000000000545403766300000000000054550376710000000000005456037672000000000000545803767400000000000054590377170000000000005460037718000000000000546103771900000000000054620380000000000000005463038001000000000000546403800200000000000054650380030000000000005467038040000000000000546803804100000000000054690380420000000000005470038043000000000000547103804400000000000054760380490000000000005477038050000000000000547903805200000000000054810380540000000000005482038055000000000000548303810300000000000)))))
 (.node 8 (.node 4 (.node 2 (.node 1 (.leaf 548403812300000000000054850381240000000000005486038125000000000000548703812600000000000054880381270000000000005489038128000000000000549003812900000000000054910381300000000000005492038131000000000000549303813200000000000054940381330000000000005497038136054960381350550003813905499038138055010381400550203814105506038145055050381440550703814605151037146055080381470515103714605509038148055100381490551503815400000000000055160381580000000000005517038159000000000000551803816600000000000055210381690516203716905522038170051620371690552303817105933039171055240381720552503817305527038175000000000000552803818100000000000055290381820000000000005530038183000000000000553103818400000000000055320381850594203918505533038186059430391860553403818705943039186055350381880553603818905539038192055380381910554003819305541038194055480382010595803920105549038202000000000000555103820405550038203055550382080555403820705556038209059660392090555903821205558038211055600382130556103821405563038216000000000000556403821700000000000055650382180000000000005566038219000000000000556703822000000000000055680382210000000000005569038222000000000000557003825000000000000055710382510000000000005572038252000000000000557303825300000000000055740382540000000000005575038255000000000000557603825600000000000055770382570000000000005582038262055810382610558503826505584038264055860382660599803926605589038269060010392690559203827206004039272)
 (.leaf 560103828106013039281056050382850601703928505606038286060190392870560703828706019039287056080382880602003928805609038289052460372900561003829005246037290056110382910524803729205612038292052480372920561303829305249037293056140382940525103729505615038295052520372960561603829605617038297056200383000562103830105623038303000000000000562403830400000000000056270383070000000000005628038308000000000000562903830900000000000056300383110000000000005631038312000000000000563203831306045039313056330383140563403831505635038316000000000000563603834200000000000056370383430000000000005638038404000000000000563903840500000000000056400384060000000000005641038407000000000000564203840800000000000056430384090000000000005644038410000000000000564503841100000000000056460384120000000000005647038413000000000000564803841400000000000056490384150000000000005650038416000000000000565103841700000000000056520384180000000000005653038419000000000000565403842000000000000056550384670000000000005656038468000000000000565703846900000000000056580384700000000000005659038471000000000000566003847200000000000056610384730000000000005662038474000000000000566303849300000000000056690384990566803849805670038500056710385010567403850405675038505056760385070000000000005677038508000000000000567803850905679038510056800385110609503951205681038512053050375110568303851405682038513056850385160531003751605689038520061030395200569003852106104039521))
 (.node 1 (.leaf 569103852206105039522056920385230569303852405694038525000000000000569503852600000000000056960385270000000000005697038528053220375280569803852906111039528057020385330570103853205703038534057040385350570603853705705038536057150385460571603854705729038560053540375600573203856305357037563057330385640573403856505742038573053680375740574303857405368037574057440385750536903757505747038578057460385770574803857905749038580057500385810537603758205751038582057520385830575603858705755038586057590385900575803858905760038591061730395900576103859205386037592057620385930576303859405765038596057640385950576603859705767038598057760386070577503860605777038608057780386090578503861605784038615057860386170578703861805789038620057900386210579403862505793038624057970386280579603862705802038633054250376340580303863405425037634058040386350542603763505805038636054260376350581103864205810038641058120386430581303864405834038665000000000000583703866800000000000058380386690000000000005839038670000000000000584103867205842038673058430386740584203867305844038675000000000000584603867700000000000058480386790000000000005849038684000000000000585003871700000000000058510387180000000000005852038719000000000000585303903500000000000058550390370000000000005856039038000000000000585703903900000000000058610390430586203904405865039047054750380480586603904805475038048058670390490586803905005869039051054780380510587003905205480038053)
 (.leaf 587103905305480038053058720390540587303905505877039059000000000000587803906000000000000058800390620000000000005882039064000000000000588403906600000000000058850390670000000000005887039072000000000000588903909800000000000058900390990000000000005891039100000000000000589203910300000000000058930391040000000000005894039105000000000000589503912500000000000058960391260000000000005897039127000000000000589803912800000000000058990391290000000000005900039130000000000000590103913100000000000059020391320000000000005904039134000000000000591003914005909039139059110391410591203914205913039143055040381430591403914405915039145059170391470591603914605918039148055100381490591903914905920039150059220391520551303815205923039153055140381530592403915400000000000059250391550000000000005926039156000000000000592703915700000000000059280391580000000000005930039168059290391670593103916905520038168059320391700593303917105938039176000000000000593903918200000000000059400391830000000000005941039184000000000000594503918805944039187059460391890594703919005952039195000000000000595303919600000000000059540391970000000000005955039198000000000000595603919905957039200059600392030000000000005967039210059660392090596803921105969039212059750392180597603921905978039221000000000000597903922200000000000059800392230000000000005981039224000000000000598203925000000000000059830392510000000000005984039252000000000000598503925300000000000)))
 (.node 2 (.node 1 (.leaf 598603925400000000000059870392550000000000005988039256000000000000598903925700000000000059960392640599503926305997039265064440402650600003926806447040268060030392710645004027106012039280064590402800601403928206461040282060160392840646404028506018039286064660402870602103928906468040289060220392900646904029006023039291064690402900602403929206470040291060250392930647204029306026039294064720402930602703929506474040295060280392960602903929706035039303000000000000603803930600000000000060390393070000000000006040039308000000000000604103930900000000000060420393100000000000006043039311000000000000604403931200000000000060460393140000000000006047039315000000000000604803931600000000000060490393810000000000006050039399000000000000605103940000000000000060520394010000000000006053039402000000000000605403940300000000000060550394040000000000006056039405000000000000605803940706057039406060600394090606103941006062039411060610394100606303941206064039413060680394170000000000006069039418000000000000607003941900000000000060710394200000000000006072039421000000000000607303942200000000000060740394760000000000006075039477000000000000607603947800000000000060770394790000000000006084039500060830394990608503950106086039502060900395070000000000006092039509060910395080609303951006094039511060960395130609503951206097039514056820385130609803951505684038515060990395160610003951706109039526000000000000611203952906111039528)
 (.leaf 611303953006576040530061140395310611503953206117039534061160395330612103953805707038538061220395390570803853906123039540057090385400612403954105710038541061250395420571103854206126039543057120385430612703954405712038543061280395450571403854506129039546057140385450613003954705717038548061310395480571703854806136039553061370395540613803955505724038555061400395570613903955606141039558057270385580614203955905728038559061460395630614503956206147039564061480395650615303957006152039569061600395770615903957606161039578061620395790616503958206166039583061740395910663704059106175039592066380405920617603959305763038594061770395940617803959506184039601061850396020618603960305772038603061870396040577303860406188039605066510406050618903960605774038605061900396070665404060806191039608066540406080619203960905778038609061930396100665604061006200039617061990396160620203961905788038619062030396200620403962106209039626057950386260621103962806210039627062140396310580103863206215039632062160396330622003963705806038637062210396380580703863806222039639058070386380622303964006224039641062320396490581803864906233039650058190386500623403965106698040652062350396520623603965306240039657062390396560624103965806242039659062430396600624403966106245039662062460396630624803966506249039666062500396670624903966606253039670058400386710625403967105840038671062550396720625603967306257039674062580396750625903967605845038676))
 (.node 1 (.leaf 626003967705847038678062610396780584703867806263039680000000000000626403970100000000000062650397020000000000006266040033000000000000627304004005858039040062740400410585803904006276040043062750400420627904004605864039046062800400470628104004806286040053062850400520628704005405873039055062880400550628904005606290040057058750390570629204005906293040060062940400610587903906106296040063062950400620629704006405883039065063010400680588603906806302040069000000000000630504007206304040071063100400770000000000006311040078000000000000631204007900000000000063130400800000000000006314040081000000000000631504008800000000000063160400910000000000006318040093000000000000631904009400000000000063200400950000000000006321040096000000000000632204009700000000000063240400990000000000006325040100000000000000632604010100000000000063300401050632904010406332040107000000000000633304010900000000000063340401100000000000006335040111000000000000633604011300000000000063370401140000000000006338040115000000000000633904011600000000000063400401170000000000006342040125000000000000634804013106347040130063490401320590303913306350040133059030391330635104013406352040135063530401360685704113706354040137068570411370635504013805908039138063560401390635704014006363040146068660411460636404014705916039146063650401480686804114806366040149063670401500637104015400000000000063720401550000000000006373040156000000000000637404015700000000000)
 (.leaf 637504015800000000000063760401630000000000006377040164000000000000637904016600000000000063800401670000000000006381040168000000000000638204016900000000000063830401700000000000006384040171063850401720638804017500000000000063890401770000000000006390040185000000000000639104018600000000000063920401890000000000006394040191000000000000639504019200000000000063960401930000000000006397040194000000000000639804019500000000000063990401960000000000006400040197000000000000640104019800000000000064020401990000000000006403040200000000000000640404020100000000000064050402020000000000006406040203000000000000640704020400000000000064100402070640904020606411040208069160412080641404021106413040210064150402120692004121206416040213069200412120641704021405972039215064180402150641904021606420040217064210402180642404022100000000000064250402220000000000006426040223000000000000642704022400000000000064280402250000000000006429040250000000000000643004025100000000000064320402530643104025206433040254064340402550643504025600000000000064360402570000000000006437040258000000000000643804025900000000000064390402600599103925906440040261059920392600644204026306441040262064430402640694704126406446040267069500412670644904027006953041270064580402790696204127906463040284069680412850646504028606969041286064710402920697504129206473040294069770412940647504029606476040297064770402980603103929906478040299060310392990647904030006983041300))))
 (.node 4 (.node 2 (.node 1 (.leaf 648004030106033039301064810403020648204030306483040304060360393040648404030506037039305064850403060603703930506486040307064870403080649004031100000000000064910403120000000000006492040313000000000000649304031400000000000064940403150000000000006495040381000000000000649604039400000000000064970403950000000000006498040396000000000000649904039700000000000065000403980000000000006501040399000000000000650304040100000000000065060404040650504040306507040405060570394060651004040806059039408065110404090651204041006517040415060670394160651804041606519040417065230404210000000000006527040425000000000000652904047700000000000065300404780000000000006531040479000000000000653204048000000000000065340404820000000000006535040483000000000000653604048400000000000065380404860000000000006539040487000000000000654004049300000000000065410404940000000000006543040496065420404950654704050006546040499065480405010654904050206550040503065510405040655404050806553040507065550405090655604051006557040511070700415110655804051207071041512065590405130707204151306560040514070740415150656104051506562040516065660405200656504051906569040523061070395240657004052406108039525065710405250610803952506578040532065770405310657904053306115039532065800405340658104053506582040536065810405350658404053806583040537065880405420658704054106589040543065900405440660104055506139039556066020405560660304055706606040560066070405610661004056406609040563)
 (.leaf 661404056806613040567066150405690615103956806618040572066170405710662104057506620040574066220405760713604157706623040577066240405780663204058607146041587066330405870663404058806639040593066380405920664604060006647040601066600406140665904061306663040617066620406160666404061806201039618066650406190666604062006671040625066700406240667204062606210039627066730406270667404062806678040632066770406310667904063306680040634066810406350621903963606682040636062190396360668304063706219039636066840406380719704163806685040639071990416400668604064007199041640066880406420668704064106689040643072020416430669004064406691040645066920406460669304064706705040659067040406580670604066006244039661067070406610624403966106708040662067090406630671104066507224041665067120406660722504166606713040667072260416670671404066806715040669067170406710671804067206727040681000000000000672804068200000000000067300406840000000000006732040686000000000000673304068700000000000067340406880000000000006735040689000000000000673704069100000000000067380406940000000000006739040695000000000000674004069600000000000067410406970000000000006742040698000000000000674304070000000000000067450407020674404070106746040703000000000000674704070400000000000067480407050000000000006750040707000000000000675204070900000000000067530407100000000000006754040711000000000000675504071200000000000067560407130000000000006757040714000000000000675804103200000000000))
 (.node 1 (.leaf 675904103300000000000067610410350676204103606767041041067660410400676804104206769041043067700410440677104104506774041048067750410490679204106606299040066067950410690630304007006796041070063040400710679704107106304040071067980410720630604007306799041073063070400740680004107406307040074068010410750630804007506803041077068020410760680404107806805041079068070410810000000000006808041082000000000000681004108800000000000068110410890000000000006812041090000000000000681404109200000000000068150410930000000000006816041094068170410950682304110106822041100068240411020682504110306826041104068250411030682704110506828041106068300411080000000000006832041110068310411090683304111100000000000068380411160683704111506839041117063410401180684004111806341040118068410411190000000000006846041124000000000000684704112700000000000068480411280000000000006849041129000000000000685004113000000000000068510411310000000000006856041136068550411350686204114206863041143068710411510687004115006872041152063690401520687304115300000000000068740411540000000000006875041155000000000000687604115600000000000068770411570000000000006878041158000000000000687904115900000000000068800411600000000000006881041161000000000000688204116200000000000068840411640688304116306885041165063780401650688604116600000000000068870411670000000000006888041168000000000000688904116900000000000068900411710000000000006895041176068940411750689604117700000000000)
 (.leaf 689704117800000000000068980411790000000000006899041181000000000000690004118200000000000069030411910690204119006904041192069050411930690804119600000000000069090411970000000000006910041201000000000000691104120200000000000069120412030000000000006913041205000000000000691404120600000000000069150412070000000000006917041209069160412080692304121506922041214069240412160745504221706926041218069250412170692704121906928041220069300412220000000000006931041223000000000000693204122400000000000069330412250000000000006934041226000000000000693504125100000000000069360412520000000000006937041253000000000000693804125400000000000069390412550000000000006940041257000000000000694104125800000000000069610412780748704227806965041282074900422810696704128406968041285069790412960697804129506980041297069810412980698404130107511042302069850413020751104230206986041303075120423030698704130400000000000069880413050000000000006989041306000000000000699004130700000000000069910413080000000000006992041309000000000000699304131000000000000069940413110000000000006995041390000000000000699604139100000000000069970413920000000000006998041393000000000000699904139400000000000070000413950000000000007004041399070050414000700604140106502040400070070414020650404040207009041404070080414030701004140507011041406070130414080701404140907017041412070180414130702004141507545042415070210414160754504241507025041420065220404200702604142106524040422)))
 (.node 2 (.node 1 (.leaf 702704142206525040423070280414230652604042407029041424070300414250703204142700000000000070330414280000000000007035041430000000000000703704143200000000000070380414560000000000007039041457000000000000704004145800000000000070410414590000000000007042041460000000000000704304148000000000000070470414840704604148307048041485065370404850704904148607050041487070530414900000000000007054041491000000000000705504149500000000000070560414960000000000007057041497076050424970706004150007059041499070610415010706204150207065041505000000000000706604150700000000000070670415080000000000007068041509000000000000706904151000000000000070760415170707504151607077041518076250425180708004152107079041520070810415220656704052107082041523076290425220708304152407084041525070890415300657504052907094041535070930415340710304154407102041543071040415450710504154607107041548071060415470710804154906594040548071090415500711004155107111041552065980405520711204155306600040554071130415540660004055407114041555076630425560711504155607663042556071160415570711704155807123041564071240415650713104157207130041571071320415730713304157407137041578076860425790713804157907686042579071390415800768704258007140041581071410415820714304158407690042583071440415850714504158607149041590071480415890715004159106637040591071560415970715504159607157041598071580415990715904160007160041601071620416030716304160407166041607071670416080717104161207170041611)
 (.leaf 717404161507173041614071750416160666204061607176041617066620406160717704161807178041619071810416220718204162307184041625071850416260719104163207190041631071920416330774004263307193041634071940416350719504163607743042636071960416370774404263707203041644077520426450720404164507205041646072070416480720604164707208041649077560426490720904165007210041651072110416520776004265307212041653072130416540721604165707215041656072170416580721804165907229041670067160406700723004167107231041672072330416740723404167507238041679067250406790724004168107239041680072420416830724104168207243041684067290406830724404168506731040685072450416860673104068507247041688072460416870724804168907249041690072500416910725104169207254041695072550416960725604169700000000000072570416980000000000007262041705072610417040726304170607264041707072650417080726404170707271041714072720417150727404171700000000000072760420000000000000007278042002000000000000727904202700000000000072800420280000000000007281042029000000000000728204203000000000000072840420320728304203107285042033067600410340728604203406760041034072870420350676204103607288042036067620410360728904203706764041038072900420380676404103807291042039072920420400730204205007301042049073030420510677804105207306042054073070420550731004205806784041058073120420600678604106007313042061067870410610731604206407315042063073180420660731704206507319042067067940410680732004206806794041068))
 (.node 1 (.leaf 732104206907875043069073230420710732204207007324042072078780430720732504207307326042074073270420750680204107607328042076073290420770733104207906805041079073320420800733304208107335042083068090410830733804208600000000000073440420920734504209307347042095068170410950734904209706819041097073510420990735004209807353042101073520421000735604210407355042103073570421050791104310507358042106073590421070736504211307364042112073660421140683604111407368042116073670421150736904211707370042118073710421190737004211807373042121068430411210737404212206844041122073750421230684504112307376042124000000000000737704212500000000000073800421280000000000007381042129000000000000738204213000000000000073830421310000000000007384042133000000000000738504213400000000000073860421350000000000007387042136000000000000738804213700000000000073890421380000000000007390042139000000000000739104214000000000000073920421410000000000007394042143000000000000739504214400000000000073960421450000000000007397042146000000000000739804214700000000000073990421480000000000007400042149000000000000740104215000000000000074020421510000000000007403042152000000000000740404215300000000000074050421540000000000007406042155000000000000740704215600000000000074080421590000000000007409042160000000000000741004216100000000000074110421620000000000007412042163000000000000741304216400000000000074140421650000000000007415042166000000000000741604216700000000000)
 (.leaf 741704216800000000000074180421690000000000007419042170000000000000742004217100000000000074250421760742404217507426042177074270421780743004218207429042181074310421830000000000007432042188000000000000743304218900000000000074350421910743404219007436042192074370421930744104219700000000000074420422010000000000007443042202000000000000744404220600000000000074450422070000000000007446042208000000000000744804221000000000000074520422140745104221307453042215079980432150745404221607455042217074570422190745604221807458042220074590422210746204225300000000000074630422540000000000007464042255000000000000746504225600000000000074660422570000000000007472042263074710422620748604227707485042276074880422790803604327907491042282080390432820749304228408040043283074940422850749504228607496042287074970422880749904229006974041291075000422910697404129107506042297075050422960750704229807508042299075090423000805704330007510042301080580433010751304230400000000000075140423050000000000007515042306000000000000751604230700000000000075170423080000000000007518042388000000000000751904238900000000000075200423900000000000007521042391000000000000752204239200000000000075230423930000000000007524042394000000000000752604239607525042395075270423970700204139707528042398070020413970753004240007529042399075310424010807904340207532042402075330424030753504240507011041406075360424060701104140607537042407080850434080753804240808085043408)))))))
 (.node 32 (.node 16 (.node 8 (.node 4 (.node 2 (.node 1 (.leaf 753904240907540042410075420424120754304241307557042427075560424260755804242807034041429075590424290703404142907562042432075630424330756404243400000000000075660424360000000000007567042446000000000000756804244700000000000075690424480000000000007570042449000000000000757104245000000000000075720424560000000000007573042457000000000000757404245800000000000075750424590000000000007576042465000000000000757704246600000000000075780424670000000000007579042468000000000000758004247100000000000075810424720000000000007583042474000000000000758404247500000000000075850424760000000000007586042477000000000000758704247800000000000075880424790000000000007589042480000000000000759004248100000000000075930424840759204248307595042486075940424850759604248707597042488076010424920000000000007602042493000000000000760304249400000000000076040424950000000000007612042504076130425050761404250600000000000076150425070000000000007616042509000000000000761704251000000000000076180425110000000000007619042512000000000000762004251300000000000076230425160762204251507624042517070750415160763204252507633042526076350425280708804152907637042530076360425290763804253107090041531076430425360764204253507644042537076450425380765304254607652042545076540425470765504254807656042549082120435480765704255007658042551076640425570822104355707665042558076660425590766804256107669042562076700425630767104256407678042571076770425700767904257207680042573)
 (.leaf 768104257407682042575076850425780768604257907689042582076900425830769104258408248043584076920425850769304258607695042588082530435890769604258908254043590076970425900769804259107705042598077060425990771304260607714042607077230426160772204261507724042617077250426180773104262407732042625077370426300773804263107742042635077410426340774504263807744042637077460426390774704264007762042655077610426540776404265707763042656077650426580776604265907771042664077700426630777204266508329043665077730426660777404266707776042669077750426680777704267007778042671077800426730777904267207781042674072340416750778204267507783042676077910426840779004268307792042685077930426860779904269207798042691078000426930725204169307801042694078020426950780404269707803042696078050426980000000000007806042699000000000000781604270907266041709078230427160782204271507824042717072750417180782504271807275041718078260427190000000000007827043000072770420010782804300107829043002078320430050000000000007833043027000000000000783604303007835043029078370430310839404403007838043032083960440320783904303308396044032078400430340839804403407841043035083990440350784204303608399044035078430430370840004403607844043038084010440370784904304307848043042078510430450785004304407852043046072990420470785404304807853043047078550430490730104204907856043050073010420490785804305207304042052078590430530730504205307860043054073070420550786104305508419044055))
 (.node 1 (.leaf 786204305607863043057078640430580730904205707865043059078660430600786704306107314042062078680430620731404206207869043063084270440630787004306408428044064078710430650843004406607872043066084300440660787304306707874043068078760430700843504407107877043071078780430720788004307407881043075078820430760843904407507883043077078840430780788904308307888043082078900430840733604208407891043085084500440860789204308607339042087078930430870733904208707894043088078950430890789804309207897043091078990430930790004309407901043095073480420960790204309607903043097079040430980790504309907916043110079150431090791704311107364042112079200431140736704211507925043119079240431180792604312007372042120079270431210792804312207931043125084890441250793204312607378042126079330431270737904212707934043128079350431290793604313000000000000079370431310000000000007938043132000000000000793904313600000000000079400431370000000000007941043138000000000000794204314200000000000079430431430000000000007944043144000000000000794504314500000000000079470431470000000000007950043150000000000000795304315300000000000079540431620000000000007956043164000000000000795704316500000000000079580431660000000000007959043167000000000000796004316800000000000079610431690000000000007964043172079630431710796504317307966043174079680431760796704317507969043177074270421780797404318207975043183079760431840000000000007977043186000000000000797904318907978043188)
 (.leaf 798004319007981043191079860431960000000000007987043201000000000000798804320200000000000079890432060000000000007990043207000000000000799104320800000000000079920432090000000000007993043210000000000000799404321100000000000079950432120000000000007999043216085690442160800104321808000043217080020432190857204421908003043220085720442190800404322107460042222080050432220746104222308006043223080070432240800804322500000000000080090432260000000000008010043253000000000000801104325400000000000080120432550000000000008013043256000000000000801504325808014043257080160432590859204425908017043260085930442600801804326108594044261080190432620747104226208022043265080210432640802304326607475042266080320432750803104327408033043276086090442760803504327808611044278080420432850804104328408043043286086180442850804404328707497042288080450432880804604328908049043292080500432930805404329700000000000080550432980000000000008060043303000000000000806104330400000000000080620433850000000000008063043386000000000000806404338700000000000080650433880000000000008066043389000000000000806704339000000000000080680433910000000000008072043395080710433940807304339608074043397080840434070864904440708087043410080880434110809204341508091043414080930434160754704241708094043417080950434180809904342207552042422081000434230755304242308101043424081020434250810404342708103043426081050434280810604342908108043431081070434300810904343207563042433)))
 (.node 2 (.node 1 (.leaf 811004343308111043434081120434350811304343608114043437000000000000811504343800000000000081170434470000000000008119043449081180434480812004345000000000000081210434510000000000008122043452000000000000812304345300000000000081250434610000000000008126043462000000000000812704346300000000000081290434650000000000008130043466000000000000813204346800000000000081350434710813404347008139043475081380434740814004347608714044477081410434770814204347808144043480081430434790814504348108146043482081500434860814904348508151043487081520434880815504349108154043490081560434920760004249108157043493081580434940816404350008163043499081650435010816604350208168043504076130425050816904350508170043506081710435070000000000008172043508000000000000817404351008173043509081750435110817604351208178043514000000000000818004351608179043515081870435230818604352208188043524076310425240818904352508190043526081940435300819304352908195043531081960435320820804354408207043543082130435490821204354808215043551082140435500821604355208787044552082170435530878804455308218043554082190435550822204355808221043557082230435590822404356008227043563082280435640823104356708230043566082320435680823304356908235043571076770425700823604357208237043573082560435920882704459208257043593082580435940826004359608259043595082610435970826204359808265043601088370446020827504361108274043610082800436160827904361508281043617082820436180828304361908284043620)
 (.leaf 828604362208287043623082910436270829204362808296043632088670446320829704363307740042633083010436370830204363808303043639083020436380830404364008305043641083060436420887704464208307043643083080436440831904365508318043654083200436560776304265608334043670083330436690833604367208335043671083370436730833804367408340043676083410436770834204367808341043677083430436790778704268008344043680083450436810835504369108354043690083560436920892704469208358043694083570436930835904369508360043696083610436970836004369608362043698083630436990837004370608369043705083710437070894204470708372043708078140427070837904371508378043714083800437160838104371708384044000083850440010838904400508390044006083930440290000000000008397044033083960440320840404404008976045040084050440410784604304008406044042078480430420841304404908412044048084140440500785704305108415044051089880450520841604405208988045052084170440530841804405408420044056089920450560842104405708994045058084220440580899404505808423044059089940450580842504406108424044060084260440620842704406308429044065084300440660843204406809005045069084330440690900504506908434044070084350440710844004407608439044075084410440770901304507708442044078090140450780844304407908444044080084480440840844704408308449044085084500440860845104408708452044088084580440940845704409308459044095084600440960846104409708462044098084650441010790704310108469044105084680441040847004410608471044107))
 (.node 1 (.leaf 847304410908472044108084760441120847504411108482044118084810441170848304411909054045118084840441200905504511908485044121084860441220848704412307930043124084880441240848904412508495044131000000000000849804413400000000000084990441350000000000008501044137000000000000850204413800000000000085030441390000000000008504044140000000000000850504414100000000000085060441420000000000008507044143000000000000850904414508508044144085110441470851004414608524044160000000000000853004416608531044167085320441680000000000008533044169000000000000853404417007962043170085350441710796304317108536044172085370441730853804417408539044175085420441780797104317908546044182085470441830854804418600000000000085500441880854904418708551044189085520441900855304419109127045191085540441920912804519208555044193079830431930855604419408557044195085600442060855904420508561044207091360452070856204420808563044209085640442100000000000008565044211000000000000856604421200000000000085700442170856904421608571044218091430452180857304422008572044219085770442240857604422308578044225085790442260858104422800000000000085830442300000000000008584044231000000000000858504425200000000000085860442530000000000008587044254000000000000858804425500000000000085890442560000000000008590044257000000000000860304427008027043270086080442750860704427408610044277091850452770861904428608618044285086200442870862104428808625044292092000452920862604429300000000000)
 (.leaf 862704429400000000000086280442950000000000008629044385000000000000863004438600000000000086310443890000000000008633044391086320443900863404439208069043392086390443970864004439808648044406086490444070865004440808649044407086520444100922504540908653044411086540444120865604441409231045415086570444150809104341408658044416092320454160866004441808659044417086610444190809604341908662044420080970434200866304442108664044422086690444270866804442608671044429086700444280867304443108672044430086740444320924904543308675044433086760444340868104443908682044440086830444410000000000008684044442000000000000868504444700000000000086860444480000000000008687044449086880444500868904445100000000000086900444520000000000008691044453000000000000869204445500000000000086930444560000000000008694044457000000000000869604445900000000000086980444610869704446008699044462092720454630870004446308128043464087050444680870404446708706044469081330434690870804447108707044470087090444720813604347208710044473087110444740871304447609285045476087150444780871404447708720044483087190444820872104448409293045484087220444850814904348508723044486092950454860872404448708725044488087280444910872704449008729044492087300444930873304449608161043497087340444970816104349708735044498093060454970873704450008736044499087380445010931104550208739044502093110455020874004450309313045504087410445040874204450508743044506000000000000874504451008744044509))))
 (.node 4 (.node 2 (.node 1 (.leaf 874604451108176043512087470445120874804451308753044518087520445170875404451908182043518087550445200818304351908757044522087560445210875804452308759044524087600445250876104452608765044530087640445290876604453108767044532087680445330876704453208769044534087700445350877704454208776044541087810445460878004454508782044547093530455460878304454808784044549087850445500935704555008789044554087880445530879004455508791044556087940445590936604555908795044560093680455610879604456108797044562088010445660880004456508802044567088030445680880404456909376045569088050445700880604457108815044580088160445810882004458508819044584088240445890882504459008829044594094020455950883004459508831044596088510446160885004461508852044617088530446180885804462308859044624088700446350886904463408871044636083000436360887204463708873044638088900446550888904465408891044656083210436570889204465708893044658088950446600889604466108897044662094690456620889804466308328043664089000446650889904466408901044666089020446670890904467408338043674089100446750833904367508911044676089120446770891304467808912044677089140446790948604567908915044680083450436810891604468108917044682089210446860892004468508922044687083500436860892304468808352043688089310446960836004369608932044697083600436960893304469808934044699089350447000836404370008938044703083670437030893904470408368043704089400447050894104470608947044712089460447110894804471309519045712)
 (.leaf 894904471408377043713089500447150895104471608955045000089560450010895804500308957045002089650450100000000000008966045011000000000000896804503200000000000089690450330000000000008971045035089700450340897204503608973045037089750450390955104603808981045045089800450440898204504609559046046089830450470956004604708984045048095600460470898504504909562046049089860450500956304605008987045051095630460500899004505408989045053089970450610899604506009003045067095810460680900404506809581046068090060450700958204606909008045072095850460720901604508009015045079090170450810844504408109018045082090190450830902304508709022045086090240450880902504508909027045091084540440900903604510008464044100090370451010961404610109038045102096160461030903904510309616046103090400451040846704410309041045105084680441040904204510609043045107090450451090847204410809050045114090490451130905104511508479044115090520451160963004611709053045117096300461170905604512009633046120090580451220905704512109060045124090590451230906104512509062045126090660451300906504512909067045131084940441300906804513208496044132090690451330849704413309072045136085000441360907304513709074045138090790451430000000000009080045144000000000000908304514709660046147090840451480851204414809085045149085130441490908604515008514044150090900451540851804415409097045161085250441610909804516208526044162091030451670000000000009110045174091090451730911104517509687046174))
 (.node 1 (.leaf 911404517809113045177091160451800911504517909117045181085450441810911804518209119045183091230451870912204518609124045188091250451890912904519309706046193091300451940913104519509134045205000000000000913504520600000000000091370452080000000000009138045209000000000000913904521400000000000091410452160914004521509142045217097150462180914404521909143045218091450452200971704622009148045223091470452220914904522409150045225091510452260915004522509152045227085800442270915304522808582044229091540452290915504523009156045231000000000000915704523200000000000091580452330000000000009159045234000000000000916004525200000000000091610452530000000000009162045254000000000000916304525500000000000091640452560000000000009165045257000000000000916804526009743046260091790452710860404427109182045274091810452730918304527509758046275091840452760918504527709190045282097660462830919304528509768046285091940452860976804628509195045287097700462870919604528809771046288091970452890977204628909198045290091990452910920104529300000000000092020453860000000000009203045387000000000000920404538800000000000092070453910920604539009208045392086350443930920904539309210045394092120453960978804639709216045400092170454010922404540809798046407092270454110980204641109228045412098030464120923504541909234045418092360454200981104642009237045421086640444220923804542209239045423092420454260924104542509243045427092440454280924504542909246045430)
 (.leaf 924804543209249045433092590454470000000000009260045448000000000000926104544900000000000092620454500000000000009266045457092650454560926704545809268045459092710454620927204546309274045465092730454640927504546608703044466092760454670870304446609279045470098580464710928104547209280045471092870454780928604547709288045479098660464790929004548109289045480092910454820986904648209294045485098720464850929904549009298045489093000454910987804649109301045492098800464930930204549309303045494093090455000930804549909310045501098880465010931404550500000000000093150455080000000000009316045509093170455100932304551609324045517093330455260933204552509334045527087620445270933604552909335045528093380455310933704553009339045532093400455330934304553609342045535093540455470993304654709355045548093560455490936104555409941046555093620455550936304555609364045557093650455580937004556309371045564093730455660937204556509378045571093790455720938904558209388045581093900455830939104558409394045587093950455880940304559609404045597094070456000998604660009408045601099880466020940904560209410045603094230456160942204561509424045617094250456180942904562209430045623094340456270886304462809445045638094440456370944604563908875044640094470456400944804564109449045642094480456410945304564608881044646094540456470888204464709455045648088840446490945604564908885044650094600456530888804465309462045655094610456540946304565609464045657)))
 (.node 2 (.node 1 (.leaf 947504566808904044669094760456690947704567009482045675094810456740948304567609484045677094880456810948704568009489045682094900456830949304568609492045685094940456870949504568809497045690094960456890949804569108926044691094990456921007704669109500045693095010456940950804570109507045700095090457020893704470209510045703095110457040951704571009516045709095200457130951904571209521045714101000467140952204571510102046716095230457161010204671609524045717095250457180952604571900000000000095270460000952804600109530046003101080470020953104600408959045004095320460050896104500609533046006089620450070953404600709535046008095360460090953704601009538046011000000000000953904601208967045012095400460130000000000009541046014000000000000954204601500000000000095430460160000000000009545046031000000000000954604603200000000000095470460340000000000009548046035000000000000955304604010141047040095540460411014104704009556046043095550460420955704604408980045044095640460510956304605009573046060095740460610957704606409578046065095920460790959104607809593046080095940460810959504608209596046083095980460850959704608409600046087090220450860960104608809602046089096050460920960604609309607046094096060460930960804609509031045095096090460961019804709709610046097096110460980961504610209614046101096190461060961804610509620046107090440451080962104610810209047108096220461090962304611009624046111090470451110962504611210213047112)
 (.leaf 962604611310214047113096270461140904904511309628046115102160471150962904611610218047117096360461231022404712309638046125096370461240964404613110232047131096450461320964604613309647046134102350471340964804613509649046136096590461460965804614509661046148096600461470966204614909663046150096640461510908704515109666046153090890451530966704615410255047154096690461560909204515609670046157090930451570967104615809094045158096720461590909504515909673046160090960451600967504616209099045163096770461640910004516409678046165091020451660967904616610268047167096800461670968104616809682046169091050451690968304617009107045171096840461710910704517109691046178096900461770969204617909115045179096930461800911504517909694046181096950461820969704618409121045185096980461850969904618609700046187091220451860970104618800000000000097020461890000000000009704046191000000000000970504619200000000000097090461960000000000009719046222097180462210972004622310307047224097210462241030704722409723046226097240462270972504622809724046227097260462291031204722909727046230091550452300972804623109729046232097300462330000000000009731046234000000000000973204623500000000000097330462360000000000009734046237000000000000973504625200000000000097360462530000000000009737046254000000000000973804625500000000000097390462560000000000009741046258000000000000974204625909167045259097550462720918004527209756046273097570462740976004627709761046278))
 (.node 1 (.leaf 976304628009764046281097650462821035104728309769046286103540472860977304629010358047290097750462920000000000009776046323000000000000977704638600000000000097790463880977804638709780046389103810473880978204639109781046390097830463921038604739309784046393097850463940979204640109793046402097970464061040004740709800046409097990464080980404641310405047412098070464160980604641509808046417092330454170980904641809233045417098100464190981104642009817046426000000000000981804642700000000000098210464300982004642909825046434098240464330982604643509827046436098280464371043004743709829046438098300464390983104644009832046441098330464420000000000009834046445000000000000983504644800000000000098370464500926304545109840046453000000000000984104645400000000000098430464560984204645509844046457098450464580984704646009848046461098550464681046204746909856046469098570464700986104647409860046473098620464750928404547509863046476092840454750986404647709865046478098670464801047304748009868046481104740474810987304648610478047485098750464880987404648709876046489098770464900987904649209878046491098860464990000000000009887046500000000000000988904650200000000000098900465030000000000009891046505000000000000989404650809893046507098950465091050204750909896046510098970465110990304651709902046516099040465180932604551909905046519099060465200990704652109908046522099110465250991004652409912046526099130465270991604653010522047529)
 (.leaf 991704653109918046532099200465340991904653309923046537099220465360992404653809346045539099250465391053204753909926046540093460455390992704654109928046542099300465440992904654309932046546099310465450993704655109936046550099380465520935804555109939046553105460475530994004655409941046555099440465581055204755909949046563099480465620995004656409371045564099510465650995204656609955046569093770455700995604657009377045570099570465711056304757009958046572099590465730996004657409961046575099620465760996104657509963046577105700475770996404657809965046579099680465820996704658109969046583099700465840997204658609973046587099750465890997604659009982046596099830465970998504659909986046600099870466011059404760109989046603099900466040999904661309998046612100020466161000104661510003046617100040466181000604662009427045620100080466221000904662310012046626100130466271001504662910014046628100160466300943704563010017046631094380456311002004663410019046633100260466401002704664110030046644100310466451003404664810033046647100350466490945704565010036046650094580456511003704665109459045652100450466591065304766010046046660100470466611004904666310050046664100540466681005304666710055046669100560466701005804667210057046671100590466731006004667410063046677100620466761006704668109487045680100680466821067404768110069046683100700466841008304669710082046696100840466981008504669910086046700106930477001008904670310088046702)))))
 (.node 8 (.node 4 (.node 2 (.node 1 (.leaf 1009004670410091046705101010467151010004671410106047000000000000001010704700100000000000101110470051011004700410112047006101130470071011404700810720048008101150470090953704601010116047010101170470111011904701310118047012101200470141072604801410121047015101220470161012304701710124047018101250470190000000000010126047020000000000001012704702200000000000101290470270000000000010130047028000000000001013204703000000000000101390470380000000000010145047044101440470431014604704510147047046101480470471075604804710149047048101500470491015104705010150047049101550470541015404705310159047058101580470571017504707409587046074101790470781017804707710180047079101810470801018204708110183047082101860470851018504708410188047087101870470861018904708810797048088101900470891019104709010194047093096060460931019704709610198047097102100471091021104711010227047126108340481251022904712810228047127102300471291083904813010231047130096430461301023604713510235047134102370471361023804713710244047143102430471421024504714409657046144102470471461024604714510248047147102490471481025204715109663046150102530471520966504615210254047153096650461521025704715609668046155102580471571086704815810259047158102600471591026104716010870048161102620471611087104816210263047162096740461611026604716510265047164102710471701027004716910272047171108800481711027304717209685046172102740471730968504617210275047174108830481741027604717510277047176)
 (.leaf 1027804717709689046176102790471781028004717910281047180108890481801028304718210282047181102840471831028504718410289047189000000000001029004719000000000000102910471910000000000010292047192000000000001029304719300000000000102940472110000000000010298047215102970472141029904721610300047217103020472190971504621810305047222103060472231030804722500000000000103110472280000000000010315047232103140472311031604723310317047234103180472350000000000010319047236000000000001032004725200000000000103210472530000000000010323047255103220472541032404725610929048256103250472570974004625710326047258109310482581032704725910932048259103280472601093304826010331047263097460462631033804727009752046269103390472710975304627010340047272097540462711034104727310342047274103450472771095004827710346047278109510482781034804728000000000000103490472810000000000010359047312000000000001036004731300000000000103620473150000000000010363047316000000000001036404731900000000000103650473210000000000010366047322000000000001036704732300000000000103690473250000000000010371047327000000000001037304732900000000000103740473300000000000010375047363000000000001037604736400000000000103770473840000000000010383047390103820473891038404739110385047392103920473991100204840010393047400103940474011039604740311006048404103970474041100704840510399047406110090484071040104740810400047407104080474150980604641510409047416098060464151041004741710411047418))
 (.node 1 (.leaf 1041504742211024048422104160474230981504642410417047424104180474251042104742800000000000104220474290000000000010423047430000000000001042404743100000000000104250474320000000000010427047434000000000001042804743500000000000104290474360000000000010431047438000000000001043204743900000000000104330474400000000000010434047441000000000001043704744400000000000104400474470000000000010442047449098360464491044304745011042048449104440474510983804645110445047452104460474531044804745510447047454104500474571044904745610452047459104510474581045304746010454047461104550474621045404746110456047463104570474641046104746810460047467104680474751046704747410471047478104700474771047904748611080048487104800474871108004848710481047488110800484871048204748910483047490104900474971048904749610491047498098850464981049204749910493047500104940475010000000000010495047502000000000001049904750610498047505105030475101050204750910504047511098970465111050504751210506047513105110475181051004751710512047519105130475201051604752309910046524105190475261051804752510525047532105240475311052604753309919046533105290475361052804753510536047543105350475421053904754610538047545105400475471054104754810542047549111420485491054404755110545047552105490475561055004755710553047560111530485601055704756410558047565105620475691056104756810564047571111640485711056604757310565047572105670475741056804757510569047576111690485761057204757909966046580)
 (.leaf 1057304758010574047581105750475821057404758110576047583105770475841058304759010584047591105860475931058704759410593047600105920475991059504760210594047601105960476031059704760410598047605105990476061060804761510607047614106090476161061004761710612047619100050466191061304762010614047621106170476241001004662410619047626106180476251062004762710621047628106250476321062604763310628047635106270476341063204763910025046639106330476401063404764110637047644106380476451064304765010642047649106440476511003804665210645047652100390466531064604765310040046654106470476541064804765510650047657100440466581065104765810652047659106610476681066004766710662047669106630476701066404767110057046671106650476721066604767310669047676106680476751067004767710671047678106760476831067504768210677047684100700466841067804768510072046686106810476881068004768710682047689100760466901068504769210077046691106860476931128604869310687047694100790466931068804769510689047696106900476971069104769810695047702106940477011069604770311295048702106970477041069804770510702047709107010477081070304771010704047711107050477121070404771110706047713107070477141070904771610708047715107100477171071104771810712047719107110477181071304800000000000000107150480031071404800210716048004113150490041071704800500000000000107180480060000000000010721048009107200480081072204801010117047011107230480111072404801210727048015000000000001072804801600000000000)))
 (.node 2 (.node 1 (.leaf 1072904801700000000000107300480180000000000010731048019000000000001073204802300000000000107330480240000000000010734048025000000000001073504802600000000000107360480271012804702610737048028113300490281073804802910131047029107390480301133204903010740048031101330470311074104803210134047032107420480331013504703310743048034101360470341074404803510136047034107450480361013704703610746048037101380470371074904804010748048039107500480411014204704110751048042101420470411075204804310753048044107630480541076204805310765048056107640480551076604805710157047056107670480581016004705910772048063107710480621077604806710168047067107770480681077804806910783048074107820480731078404807510176047075107850480761017604707510787048078107860480771078804807910789048080107910480821018304708210803048094108020480931080704809810200047099108150481061081404810510816048107114090491071081704810811410049108108180481091141104910910822048113108210481121082304811411416049114108240481151141704911510835048126108340481251083804812910837048128108410481321084004813110843048134108420481331084404813510235047134108450481361084604813710849048140108480481391085004814110851048142108520481431024304714210853048144114470491451085404814510855048146108560481471085504814610857048148108580481491085904815010858048149108600481511086104815210879048170108780481691088104817211474049172108840481751147704917510885048176108860481771089104818200000000000)
 (.leaf 1089204818300000000000108930481841089404818510895048186000000000001089704818800000000000108980481890000000000010899048190000000000001090004819100000000000109010481920000000000010902048193000000000001090704821510906048214109080482161090904821710911048219109100482181091304822110304047221109140482221091504822310917048225000000000001091804822800000000000109190482290000000000010921048231109200482301092204823210923048233109240482340000000000010925048235000000000001092604825300000000000109270482540000000000010928048255000000000001093004825700000000000109340482611093304826010937048264103320472641094204826910336047268109430482701033704726910949048276109500482771095304828000000000000109540482810000000000010955048282000000000001095604828300000000000109570482840000000000010958048285000000000001095904828600000000000109600482870000000000010961048311000000000001096304831310962048312109640483141155004931410965048315103610473141096604831610967048317109710483211097004832010972048322109730483231097404832410368047324109760483261037004732610978048328103720473281098204833200000000000109830483630000000000010984048364000000000001098504838300000000000109860483840000000000010987048385000000000001099004838810380047387109910483891099204839010997048395109980483961099904839711000048398110130484111101204841011015048413110140484121101904841711018048416110200484181159804941711021048419110220484201102704842511028048426))
 (.node 1 (.leaf 1103204843900000000000110340484410000000000011035048442104350474421103604844310436047443110370484441043804744511050048457110490484561105604846311057048464110580484651045804746511059048466116420494661106004846711644049468110610484681164404946811063048470110620484691106904847611068048475110700484771107104847811074048481110730484801107504848210476047483110760484831047604748311077048484116600494841107804848511079048486110860484931108504849211088048495110870484941108904849611090048497110920484991109304850011100048507110990485061110304851011102048509111040485111110504851211112048519111110485181111304852011114048521111200485271111904852611121048528111220485291113704854411136048543111400485471113904854611141048548111420485491114804855511149048556111550485621173904956311156048563117390495631115904856611158048565111600485671116104856811170048577117540495781117504858211176048583111780485851117904858611184048591117670495911118504859211768049592111870485941118804859511190048597111910485981119304860011192048599111940486011119504860211197048604117800496041119804860511199048606112060486131120504861211211048618112100486171121204861911213048620112170486241061804762511219048626112200486271122204862910622047629112260486331122504863211231048638112300486371123204863910631047638112330486401123404864111239048646106390476461124004864710640047647112410486481064204764911247048654112460486531124804865511249048656)
 (.leaf 1125604866311255048662112570486641065704766411258048665118410496651125904866610659047666112600486671184404966811261048668112620486691126304867011847049671112640486711184704967111266048673112650486721126704867411268048675112730486801127204867911281048688112800486871128204868911865049689112830486901068304769011284048691106840476911128504869211286048693112890486961129004869711293048700112920486991129404870111877049701112980487051129904870611301048708113000487071130204870911885049709113030487101130404871111305048712118880497121130604871311307048714113110487181131204871911313049000000000000001131404900300000000000113160490050000000000011320049010113190490091132104901111322049012113230490131072504801311324049014113250490151132604902400000000000113270490250000000000011334049032113330490311133504903311910050033113360490341133704903511340049038113390490371134204904011341049039113430490411134404904211351049049113500490481136204906011361049059113650490631136404906211366049064107730480641136804906611367049065113690490671194405006711370049068113710490691138104907911380049078113820490801138304908111389049087113900490881139404909211393049091113960490941139504909311397049095108040480951140004909811399049097114010490991080804809911402049100108090481001140304910110810048101114190491171141804911611423049121114220491201142704912511426049124114280491261200405012711431049129114300491281143204913011433049131))))
 (.node 4 (.node 2 (.node 1 (.leaf 1143804913611437049135114390491371201305013611440049138114410491391144304914112019050142114440491421085104814211445049143114460491441145604915411455049153114570491551145804915611459049157108650481561146004915810867048158114610491591086904816011462049160108690481601146304916110870048161114640491621087204816311465049163108720481631146604916411467049165114680491661087404816511469049167114700491681147104916912046050169114750491731147404917211476049174120510501741147804917612052050175114790491771148004917811482049180120570501801148304918100000000000114840491820000000000011485049183000000000001148604918400000000000114890491881148804918711490049189114910491901149204919100000000000114930491920000000000011494049204000000000001149504920500000000000114960492060000000000011497049207000000000001149804920800000000000114990492090000000000011501049211115000492101150204921210903048211115050492151150404921411507049217115060492161150904921911508049218115100492201091204822011511049221115120492221151404922411515049225115160492260000000000011517049229000000000001151804923000000000000115190492310000000000011520049232000000000001152104925500000000000115220492560000000000011523049257000000000001152404925800000000000115250492591093204825911527049261115260492601152804926212105050261115290492631093604826311530049264109360482631153104926510938048265115350492691094104826811536049270115370492711153804927210945048272)
 (.leaf 1153904927310947048274115400492741094804827511541049275115420492761154504927900000000000115460492800000000000011547049311000000000001154804931200000000000115490493130000000000011552049316115510493151155304931710967048317115540493181096804831811555049319109690483191155604932010969048319115580493221155704932111559049323109730483231156204932610975048325115640493281097904832911568049332000000000001156904938300000000000115710493851157004938411572049386109880483861157304938710989048387115740493881157504938911577049391115780493921159004940900000000000116000494191159904941811601049420116020494211160504942411606049425116110494310000000000011612049433000000000001161304943400000000000116140494350000000000011615049439000000000001161604944000000000000116170494411103304844011618049442116190494431162104944511622049446116270494511104304845011628049452122070504511163004945411629049453116320494561163104945511633049457110490484561163404945811051048458116350494591105104845811636049460116370494611164504946911644049468116460494701164704947111651049475116500494741165204947611068048475116550494791165404947811656049480116570494811165804948211657049481116590494831166004948411661049485116600494841166204948611663049487116640494881166504948911672049496116710494951167604950011675049499116770495011167804950211684049508116830495071168504950911686049510116870495111168804951211693049517116920495161169504951911694049518))
 (.node 1 (.leaf 1169604952012276050520116970495211227705052111706049530111220485291170704953111124048531117080495321170904953311710049534117110495351171404953811713049537117160495401171504953911717049541111330485401171904954311718049542117200495441172104954511722049546117210495451172504954911726049550117280495521230805055211729049553117300495541174004956411739049563117420495661174104956511743049567117440495681174704957111746049570117490495731175004957411755049579117540495781175604958012336050580117600495841175904958311761049585117620495861176404958811181048588117650495891176604959011771049595123500505941177204959611773049597117770496011177604960011778049602123580506021177904960311780049604117830496071236405060811791049615117900496141179404961811793049617117950496191179604962011802049626118010496251180404962811805049629118070496311180604963011808049632118090496331181004963412389050633118110496351239105063511812049636112280486351181404963811813049637118160496401181504963911817049641123970506411181804964211819049643118230496471182204964611824049648118250496491182604965011825049649118270496511182804965211831049655112490486561183204965611833049657118420496661184104966511843049667124230506671184504966911844049668118520496761127004867711853049677118540496781185504967911272048679118600496841185904968311861049685112780486851186204968611863049687118660496901186504968911867049691118680496921186904969312449050693)
 (.leaf 1187404969811873049697118750496991245605070011876049700118770497011188404970812464050708118870497111188804971211892049716118910497151189304971711894049718118960500080000000000011897050009000000000001189805001000000000000119000500121189905001111901050013000000000001190205001400000000000119030500260000000000011904050027000000000001190505002800000000000119060500291248005102911907050030124810510301190805003100000000000119090500320000000000011911050034000000000001191205003500000000000119130500360000000000011917050040119160500391191805004111919050042119290500521192805005111930050053124990510521193105005411357049055119320500551193305005611948050071119470500701194905007211950050073119510500741195205007511953050076113780490761195705008011956050079119580500811252705108011959050082119600500831196105008411962050085119660500891196505008811968050091119670500901197205009511971050094119730500961139804909611974050097113990490971197505009811976050099119800501031197905010211981050104119820501051198305010611982050105119890501121198805011111990050113114140491121199105011411992050115119970501201199605011911998050121125690511221199905012212000050123120070501301200605012912008050131125770511301200905013212010050133120110501341258005113312016050139120150501381202205014512023050146120240501471202505014812028050151114520491501202905015212599051152120300501531203105015412033050156120340501571204405016712614051167)))
 (.node 2 (.node 1 (.leaf 1204505016812046050169120530501761205205017512054050177126250511781205505017812056050179120580501811262905118212059050182126300511831206005018312631051184120610501840000000000012062050185000000000001206405018812063050187120650501891263405118912066050190114910491901206705019112068050192120690501930000000000012070050194000000000001207105019500000000000120730502041207205020312074050205120750502061207705020800000000000120780502090000000000012079050210000000000001208005021100000000000120810502121265005121212082050213126510512131208305021411503049213120840502151208505021612089050220126580512201209105022212090050221120930502241209205022312094050225120950502261209605022700000000000120970502280000000000012098050232000000000001209905025500000000000121000502560000000000012101050257000000000001210205025800000000000121080502641210705026312109050265126780512651211005026612678051265121110502671153204926612112050268115330492671211305026911534049268121140502701153704927112115050271115370492711211605027212117050273121210502770000000000012122050278000000000001212305031200000000000121240503130000000000012125050314000000000001212605031500000000000121300503191212905031812132050321121310503201213405032312133050322121350503241156004932412136050325121370503261213805032711563049327121390503281156504932912140050329121410503301214205033100000000000121430503320000000000012144050381000000000001215005038712149050386)
 (.leaf 1215105038812719051389121520503891215305039012157050394127250513951216605040800000000000121670504090000000000012172050414121710504131217305041512742051415121770504191217605041812178050420116020494211217905042111602049421121800504221160304942212188050431000000000001219005043412189050433121910504351219205043612193050437000000000001219805044212197050441121990504431276805144212200050444122010504451220405044811624049448122050504491162504944912206050450116260494501221505045912214050458122160504601221705046112220050464116400494641222105046511641049465122240504681222305046712225050469122260504701222905047312228050472122300504741165004947412232050476122310504751223405047812233050477122350504791223605048012237050481128070514811223805048212239050483122400504841223905048312241050485128110514851224205048612243050487122490504931224805049212252050496122510504951225305049711673049497122540504981167304949712255050499116750494991225605050011675049499122600505041226105050512262050506116820495061227305051712274050518122790505231169904952312280050524117000495241228105052511700049524122820505261170104952512283050527117020495261228405052811704049528122850505291285505152912286050530117050495291228705053112856051530122880505321228905053312290050534122910505351229205053612291050535122950505391229405053812299050543128690515431230005054412869051543123020505461230305054712304050548123050505491230605055012307050551))
 (.node 1 (.leaf 1231205055612311050555123130505571231405055812326050570128960515701232705057112328050572123350505791290405157812337050581129060515801233805058212339050583123470505911234805059212351050595129220515961235205059612353050597123570506011235605060012360050604123590506031236105060512362050606123720506161237105061512373050617129430516171237405061812944051618123750506191294605162012376050620123770506211237905062312378050622123800506241180004962412381050625118010496251238205062611801049625123840506281238305062712385050629129560516301238605063012957051631123920506361239305063712400050644124010506451240405064812405050649124070506511240605065012408050652118290496531240905065311830049654124100506541183004965412411050655124120506561241305065712414050658124310506751185104967512432050676124330506771243505067911854049678124360506801243705068112439050683130090516831244105068512440050684124420506861244305068712445050689130150516891244605069013016051690124470506911244805069212450050694118700496941245105069512452050696124600507041188004970412461050705118810497051246205070612463050707124720507160000000000012473050717000000000001247405071800000000000124750507190000000000012476051011000000000001247705101200000000000124780510130000000000012479051014000000000001248205103300000000000124830510340000000000012484051037000000000001248605103913047052038124870510401304805203912488051041124890510421249105104412490051043)
 (.leaf 1249205104512493051046124940510471305505204612495051048124960510491250105105412500051053125030510561250205105512504051057125050510581250705106012508051061125090510621193905006212512051065119420500651251905107212518051071125200510731252105107412532051085125310510841253305108611962050085125350510881253405108712536051089125370510901253905109212538051091125400510931310105209212542051095125410510941254405109712543051096125450510981254605109912559051112125600511131256105111412562051115125670511201256805112112570051123120010501241257105112412572051125125730511261257205112512574051127131350521261258105113412580051133125820511351258305113612592051145125930511461259505114812596051149125970511501202705015012598051151125990511521260505115812604051157126060511591203605015912609051162120390501621261005116313173052164126110511641261205116512620051173126190511721262105117413183052174126220511751318405217512623051176131850521761262405117713185052176126270511800000000000012633051188126320511871263505119012634051189126360511911319705219112640051195126390511941264105119600000000000126420512040000000000012643051205000000000001264405120600000000000126450512070000000000012647051209000000000001264805121000000000000126490512110000000000012652051214000000000001265305121513210052215126540512161321105221612655051217120860502171265605121812087050218126590512211321705222212660051222132170522221266405122612663051225))))))
 (.node 16 (.node 8 (.node 4 (.node 2 (.node 1 (.leaf 1266505122712666051228126680512550000000000012669051256000000000001267005125700000000000126710512580000000000012684051271126830512701268505127212686051273126910512780000000000012692051279000000000001269305131400000000000126950513161269405131512696051317132520523171270105132212700051321127020513231325805232312703051324132590523241270405132513260052325127050513261326105232612706051327000000000001270705132800000000000127080513290000000000012709051330000000000001271005138000000000000127110513810000000000012715051385127140513841271605138612148050385127170513871271805138812730051400127310514011273205140200000000000127330514060000000000012739051412127380514111274705142012746051419127480514211274905142212752051425133100524261275305142612754051427127580514310000000000012760051434000000000001276105143500000000000127620514360000000000012763051437127640514381276505143912195050439127660514401219605044012773051447127720514461277605145012775051449127770514511277805145212780051454127790514531278105145512782051456127870514611278605146012788051462133470524631278905146313347052463127900514641279105146512795051469127940514681279605147012797051471127990514731335705247312800051474128010514751280505147912804051478128060514801280705148112812051486128110514851281305148713372052488128140514881224405048812815051489128160514901281905149312818051492128200514941282105149512822051496128210514951282505149912824051498)
 (.leaf 1282605150013384052500128270515011225705050112831051505128320515061283405150812833051507128350515091283605151012840051514128390515131284105151512270050514128440515180000000000012845051519000000000001284605152012847051521128520515261285105152512857051531128560515301285805153212859051533128640515381286305153712866051540128650515391286805154212867051541128780515521287705155112879051553128800515541289205156612891051565128930515671345105256712894051568134520525681289505156912896051570128970515711345505257112898051572128990515731290105157512900051574129020515761290305157712907051581134660525821290805158212909051583129100515841291105158512912051586129130515871291605159012917051591129200515941291905159312921051595129220515961292505159913483052599129290516031292805160212930051604134880526041293105160512932051606129410516151294005161412942051616134990526151294505161913503052619129470516211294605162012948051622135060526221295105162512950051624129520516261350905262512953051627129540516281295505162912956051630129640516381239305063712965051639123940506381296605164012967051641129730516471297205164612978051652129770516511298005165412979051653129810516551241205065612982051656129830516571298605166012417050661129870516611298805166212991051665129900516641299205166612993051667129970516711299605167012998051672124280506721299905167313000051674130020516761300105167513004051678124340506781300505167912434050678))
 (.node 1 (.leaf 1300605168013007051681130120516861301105168513013051687130140516881301705169113016051690130180516921357605269213019051693135770526931302005169413021051695130220516961358005269613023051697124540506981302405169813583052699130250516991302605170013027051701124580507021303105170513030051704130320517061303305170713035051709124640507081303605171013037051711130390517131246905071313040051714130410517151304305201600000000000130440520170000000000013045052018000000000001304605201900000000000130490520401304805203913051052042130500520411305205204313621053043130570520481305605204713058052049130590520501306005205112498051051130610520521363005305213067052058125050510581306805205912506051059130690520601250605105913070052061125080510611307205206313071052062130730520641251105106413074052065125130510661307505206612513051066130760520671251405106713078052069125160510691308205207313083052074130860520771365605307813087052078130880520791309105208213090052081130920520831252905108213106052097131050520961310705209813676053098131080520991367605309813109052100125480511011311005210112548051101131110521021255005110313114052105131150521061312605211713125052116131280521191256505111813129052120125660511191313005212113131052122131330521241370205312413134052125125720511251313805212913137052128131400521311313905213013144052135131430521341314505213613146052137131490521401315005214113151052142137200531421315205214312590051143)
 (.leaf 1315305214413722053144131610521521259905115213162052153131630521541316505215613735053157131660521571316705215813170052161131710521621317805216912616051169131790521701261805117113180052171131810521721318705217800000000000131880521790000000000013190052182000000000001319105218500000000000131920521860000000000013193052187000000000001319505218913194052188131960521901319705219113198052192000000000001320005219400000000000132010521950000000000013202052196000000000001320305219700000000000132040521980000000000013205052199000000000001320605220400000000000132070522050000000000013208052206000000000001320905221400000000000132130522181321205221713214052219126570512191321505222013216052221132180522230000000000013221052226132200522251322205222713776053227132230522281322405222913225052230000000000001322605225600000000000132270522570000000000013229052259132280522581323005226013783053260132310522611378305326013232052262137840532611323305226313786053263132340522641267605126313235052265126770512641323805226812681051268132400522701323905226913241052271137940532711324205227213796053273132430522731324405227413245052275132460522761324705227700000000000132480522780000000000013249052314000000000001325005231500000000000132510523160000000000013256052321132550523201325705232213804053323132620523760000000000013263052377000000000001326405237800000000000132650523790000000000013266052380000000000001326705238100000000000)))
 (.node 2 (.node 1 (.leaf 1327005238413269052383132710523851327205238613273052387132740523881327605239013822053391132810523951382705339613282052396138280533971328405239813830053399132870524010000000000013288052404000000000001329105240713290052406132920524081273405140713294052410132930524091329505241112737051410132960524121329705241313299052415138450534161330005241613845053416133010524171384705341813302052418138470534181330305241913848053419133040524201384905342013305052421133060524221330705242313308052424133090524251331005242613316052432127590514321331705243300000000000133180524340000000000013319052435000000000001332305243913322052438133240524401332505244113330052446133290524451333205244812774051448133360524521388105345213337052453127790514531334005245613339052455133440524601334505246113346052462133470524631334805246413347052463133490524651389405346513350052466133510524671335305246913352052468133540524701335505247113356052472133570524731336005247613359052475133610524771280305147713363052479139090534801336405248013365052481133690524851336805248413370052486133710524871338605250212828051502133900525061283205150613391052507133920525081339505251113396052512133980525141339705251313401052517128430515171340205251813403052519134060525221340505252113407052523128490515231341505253113414052530134160525321341705253313420052536134190525351342205253813421052537134280525441342705254313429052545134300525461343105254712873051547)
 (.leaf 1343205254813433052549134340525501287605155013442052558134410525571344305255913444052560134480525641289005156413449052565128900515641345905257513458052574134600525761346105257713463052579134620525781346405258014009053580134650525811401105358213470052586134690525851347105258714017053588134720525881401705358813473052589140190535901347505259114020053591134970526131294005161413510052626140540536251351205262814057053628135130526291405805362913514052630140580536291352205263812963051637135230526391352405264013529052645135300526461353205264813531052647135330526491353405265013537052653140830536541353805265414084053655135390526551354005265613541052657129830516571354205265814088053659135430526591298505165913544052660135450526611354605266212988051662135470526631354805266413549052665135500526661355305266912994051668135540526701355505267113557052673135560526721356005267613559052675135610526771300305167713566052682130070516811356705268313568052684135690526851356805268413570052686135710526871357305268914118053689135740526901357505269113582052698135810526971358705270313586052702135880527041303005170413589052705141340537051359005270613591052707135960527121303805171213600052716136010527171360205301600000000000136030530170000000000013604053018000000000001360505301900000000000136060530200000000000013607053021000000000001360805302200000000000136090530310000000000013610053032000000000001361205303400000000000))
 (.node 1 (.leaf 1361305303500000000000136140530360000000000013615053037000000000001361705303913616053038136190530411361805304013622053044136210530431362505304713056052047136280530501362705304913634053056130640520551363605305813635053057136370530591417705405913639053061136380530601364105306313640053062136430530651364205306413644053066141840540661364505306714184054066136460530681307705206813647053069141870540691364805307014188054070136490530711308105207213654053076136550530771366205308413661053083136630530851309405208513666053088142060540881366805309013667053089136690530911420805409013677053099136760530981367805310013679053101136810531031368205310413683053105136840531061368605310814227054109136870531091311905211013688053110136890531111369305311513692053114136940531161312405211513695053117131270521181369705311913696053118136980531201369905312113700053122137010531231371105313313710053132137120531341425105413313714053136137130531351371505313714254054136137160531381425605413813717053139142570541391371805314014258054140137190531411425805414013721053143137200531421372305314513724053146137250531471372605314813729053151137280531501373105315313730053152137320531541373305315513736053158131670521581373705315913168052159137380531601316805215913740053162137410531631374205316413743053165137440531661428505416713745053167142850541671374705316913746053168137480531701374905317113750053172142900541721375105317313752053174)
 (.leaf 1375405317613753053175137550531771375605317813757053188000000000001375805318900000000000137590531900000000000013760053197000000000001376105320300000000000137620532040000000000013763053205000000000001376405320600000000000137650532160000000000013766053217000000000001376705321814306054218137680532191430605421813769053220143080542201377005322114309054221137710532220000000000013772053223000000000001377405322500000000000137750532260000000000013777053228143170542291377805322913779053230137800532570000000000013781053258000000000001378905326613788053265137900532671323605226613791053268132370522671379205326913239052269137930532701323905226913799053276000000000001380005327700000000000138010533190000000000013802053321000000000001380305332200000000000138050533740000000000013806053375000000000001380705337600000000000138080533770000000000013809053378000000000001381405338313813053382138150533841381605338513831053402000000000001383305340400000000000138350534061328905240513838053409138370534081383905341013840053411138410534121437305441213842053413143740544131384405341514376054415138460534171384505341613852053423138530534241385405342513855053426138570534281331205242813858053429133130524291386105343213315052431138620534331439505443413863053434143950544341386405343513865053436138660534371332105243713868053439138690534401387405344513873053444138750534461440605444513876053447133310524471387805344913877053448))))
 (.node 4 (.node 2 (.node 1 (.leaf 1387905345013334052450138800534511333505245113883053454133390524551388505345613884053455138880534591388705345813889053460133430524591389205346313891053462138960534671335205246813899053470139000534711390205347313357052473139030534741335805247413904053475144350544741390505347614438054477139060534771443805447713907053478133620524781390805347913909053480139120534831391305348413923053494133780524941392505349613924053495139260534971338005249613928053499139270534981392905350013384052500139300535011338505250113931053502133870525031393205350313387052503139330535041446605450513934053505144660545051393505350614467054506139360535071339205250813937053508133920525081393805350913393052509139390535101339405251013940053511133960525121394105351213397052513139420535131339705251313943053514133990525151394705351813946053517139480535191340405252013950053521139490535201395105352213952053523139560535271341105252713958053529139570535281396105353213962053533139660535371396505353613971053542139700535411397505354613974053545139760535471397705354813983053554139840535551398505355613986053557139900535611398905356013991053562145230545621399205356313993053564139950535661399405356513996053567139970535681400605357714007053578140150535861401605358714027053598140260535971402905360013484052600140300536011348405260014031053602134850526011403405360513489052605140360536071349105260714045053616140440536151406305363414062053633)
 (.leaf 1406605363714065053636140670536381352105263714068053639140690536401407305364414072053643140790536501353505265114080053651146130546521408105365214613054652140820536531461405465314086053657146190546581408705365814620054659140900536611462205466114091053662140920536631409505366614096053667140980536691355205266814099053670141000536711410305367414102053673141040536751355905267514107053678135620526781410805367914640054679141090536801356505268114110053681141110536821411205368314644054683141130536841464405468314114053685146460546851411505368614116053687141170536881411805368914120053691141190536901412105369214653054692141220536931465505469414123053694146550546941412605369714125053696141270536981412805369914129053700141280536991413005370113585052701141370537081413805370914139053710135940527101414005371113595052711141410537121359705271314142053713135970527131414305371413598052714141440537151359905271514145053716141460537171414705371800000000000141510540331361105303314152054034146870550341415305403514687055034141540540361468805503514155054037141560540381415805404014157054039141600540421362005304214162054044136210530431416305404513623053045141640540461362405304614165054047136260530481417105405314170054052141720540541363105305314173054055136330530551417405405614709055056141750540571471005505714176054058141770540591418505406714186054068141910540731365105307314192054074141930540751419605407814731055078))
 (.node 1 (.leaf 1421405409614213054095142170540991421605409814218054100142190541011422105410314757055104142220541041475705510414223054105142240541061422505410714226054108142390541211424005412214243054125142440541261424705412914782055129142480541301478205512914263054145142620541441426505414714264054146142660541481372605314814267054149142680541501427005415214269054151142710541531480705515414275054157137350531571427605415813735053157142770541591481205515914278054160142790541611428005416214281054163142830541651428205416414284054166142850541671428705416914822055169142880541701428905417114291054173142920541741429405417600000000000142950541770000000000014296054178000000000001429705419200000000000142980541930000000000014299054194000000000001430005419500000000000143010541960000000000014302054203000000000001430305420400000000000143040542110000000000014305054217000000000001430705421900000000000143100542221484905522214311054223148500552231431205422413773053224143130542250000000000014314054226000000000001431505422700000000000143160542280000000000014318054230000000000001431905425900000000000143220542621486005526214324054264143230542631432505426514863055265143260542661486305526514327054267148650552671432905426914328054268143300542701486805527014331054271143320542721433505427500000000000143360542760000000000014337054372000000000001433805437300000000000143390543740000000000014340054375000000000001434505438014344054379)
 (.leaf 1434705438214346054381143480543831489105538214349054384148940553851435005438514351054386143570543921490105539214361054396000000000001436205439700000000000143640544031436305440214368054407143670544061436905440814911055407143700544091437105441014375054414143740544131437805441714377054416143790544181492205541814384054423143830544221438805442714932055428143890544281493305542914390054429143910544301439205443114935055431143940544331439305443214396054435143970544361439805443714940055436143990544381386705343814401054440144000544391440205444114403054442144050544441387305344414409054448149520554481441105445014410054449144120544511441305445214415054454144160544551441705445614416054455144180544571496105545714420054459144190544581442105446014422054461144250544641389305346414426054465149690554651442705446614969055465144280544671497105546714429054468138980534691443005446913898053469144310544701443205447114439054478144380544771444005447914441054480144430544821444405448314446054485144450544841444705448614448054487144500544891445105449014453054492144520544911445405449314997055493144550544941392205349314456054495139240534951445805449714457054496144590544981500305549914460054499150040555001446105450015004055500144620545011500505550114463054502150070555031446405450315007055503144650545041500805550414468054507150110555071446905450815012055508144700545091501205550814471054510150140555101447205451115015055511)))
 (.node 2 (.node 1 (.leaf 1447305451215017055513144740545131501705551314475054514139440535151447605451513944053515144770545161394405351514480054519144790545181448105452015024055520144820545211502505552114485054524144840545231448605452513954053525144870545261395405352514488054527139550535261448905452813957053528144900545291395905353014491054530150340555301449205453113960053531144960545351449505453414502054541145010545401450305454215046055542145040545431504705554314506054545145050545441450705454613974053545145080545471450905454814511054550145100545491451205455113980053551145130545521505705555314514054553139810535521451505455415058055554145160545551451705455614519054558150610555571452005455913988053559145250545641452405456314526054565139940535651452705456615069055565145280545671452905456814530054569150740555701453105457014532054571145330545721453205457114534054573140030535741453505457414003053574145360545751453705457614539054578145400545791454105458014542054581145500545891401905359014553054592145520545911455405459314555054594145560545951455505459414560054599140280535991456305460214562054601145650546041403305360414566054605140350536061456705460614035053606145680546071511205560814569054608140370536081457105461014570054609145720546111404105361214573054612140410536121457405461314575054614145770546161404405361514583054622145820546211458405462314052053623145850546241405205362314586054625140550536261458705462614588054627)
 (.leaf 1459805463714597054636146000546391459905463814601054640140700536411460205464114070053641146030546421407205364314604054643140720536431460505464414072053643146110546501407805364914612054651146130546521461805465714617054656146240546631462505466414628054667146270546661463105467014630054669146320546711463305467214635054674146340546731463605467514105053676146370546761410505367614638054677151820556781463905467814640054679146420546811518505568114648054687000000000001464905468800000000000146500546890000000000014651054690146520546911466005469914659054698146610547001412805369914662054701141310537021466505470414666054705146670547061466805470714672054711146710547101467305471214674054713146750547140000000000014677054716146760547151467805471714679054718146800547190000000000014681055028000000000001468405503114683055030146900550371468905503614691055038141560540381469205503914693055040146950550421469405504114696055043141610540431469705504415237056044146990550461469805504514701055048147000550471470205504915241056048147040550511416905405114705055052141700540521470705505415248056055147080550551470905505614711055058152510560581471405506114713055060147160550631471505506214717055064141830540651471805506514183054065147190550661418305406514724055071147230550701472505507214190054072147260550731472705507414728055075147290550761473005507714731055078147370550841473605508314738055085142030540851474405509114743055090))
 (.node 1 (.leaf 1475305510014752055099147540551011529305610014755055102147560551031475905510614224054106147600551071530105610814761055108147620551091477205511914771055118147740551211477305512014775055122142410541231477605512314241054123147780551251531705612414779055126153180561251478005512714781055128147850551321532405613114787055134153260561331478805513515328056135147980551451479705514414817055164153580561651481805516514819055166148200551671482105516814827055174000000000001482805517500000000000148290551920000000000014830055193000000000001483105519400000000000148320551950000000000014833055199000000000001483405520000000000000148350552010000000000014836055203000000000001483705520400000000000148380552051537205620514839055206000000000001484005520700000000000148420552090000000000014844055211000000000001484505521200000000000148460552130000000000014847055214000000000001484805522100000000000148510552240000000000014852055225000000000001485305522600000000000148540552270000000000014855055230000000000001485605523100000000000148570552590000000000014858055260000000000001486205526415392056264148640552661539405626614867055269153970562691486905527115400056272148700552721540005627214871055273143330542731487205527400000000000148730552750000000000014874055293000000000001487505529400000000000148760553450000000000014877055346000000000001487805534700000000000148790553700000000000014880055371000000000001488405537514883055374)
 (.leaf 1488505537614886055377148870553781434305437814888055379148890553801489205538315421056383148930553841542305638514899055390143560543911490005539115430056392149040553950000000000014905055396000000000001490705540314906055402149080554041543505640414909055405143660544051491005540615437056406149130554091491205540814914055410154410564101491705541315444056413149180554141544505641414921055417154480564171492405542014925055421149260554221492505542114927055423143830544221492805542414929055425149300554261493105542714934055430154620564311493605543215463056432149390554351494005543614946055442144040544431494705544314948055444149500554461494905544514955055451149540554501495605545214413054452149580554541495705545314959055455144160544551496005545615487056456149660554621549305646214967055463149680554641497005546614969055465149740554701497305546914975055471149760554721497805547414434054473149790554751443505447414982055478149810554771498305547914984055480149890554851444505448414990055486155180564871499105548714992055488149930554891499405549015001055497150000554961500205549815528056497150060555021553305650215009055505155350565041501305550915539056508150160555121554305651215021055517150200555161502205551815549056518150230555191554905651815027055523150260555221502805552415554056523150310555271503005552615032055528155580565271503305552915034055530150370555331503605553215038055534144940545331503905553515040055536)))))
 (.node 8 (.node 4 (.node 2 (.node 1 (.leaf 1504405554015043055539150450555411504605554215049055545150480555441505005554615051055547150530555491505205554815054055550155810565501505505555115582056551150560555521558305655215062055558155880565571506305555915589056558150640555601559105656015065055561150660555621507105556715070055566150720555681560005656915073055569156000565691507605557215077055573150810555771508005557615082055578150830555791508705558315086055582150880555841508905558515090055586150910555871509305558915092055588150970555931509605559215098055594150990555951510205559815101055597151030555991455905459815104055600156310566001510505560115631056600151060556021456405460315107055603145640546031510805560415109055605151130556091564005660915114055610151150556111511605561215117055613151180556141457505461415119055615156470566161512005561614578054617151210556171512205561815127055623151260556221512805562415129055625151310556271458805462715134055630145910546301514405564015143055639151460556421514505564115147055643151480556441514905564514606054645151500556461460705464615151055647146080546471515205564814609054648151530556491461005464915154055650151550556511515705565315158055654151610556571568805665715162055658151630556591516605566215165055661151690556651516805566415171055667146270546661517405567015173055669151750556711463305467215177055673151760556721517805567415705056674151790556751570605667515180055676151810556771518305567915184055680)
 (.leaf 1518805568415187055683151910556880000000000015201055698152000556971520205569914659054698152030557001573105670015204055701157310567001520505570214663054702152060557031520705570415208055705152090557061521105570815212055709152140557110000000000015215055712000000000001521605571300000000000152170557160000000000015218055717000000000001521905571800000000000152200560270000000000015222056029152210560281522605603315225056032152430560501524205604915244056051147030550501524505605215246056053152470560541524805605515253056060152520560591525705606415256056063152580560651525905606615261056068152620560691526405607115786057071152650560721578605707115266056073147270550741526705607415789057074152680560751578905707415269056076152700560771527205607914732055079152750560821579705708215278056085152770560841527905608615280056087152810560881474105508815286056093152870560941529105609815290056097152920560991581505710015294056101158160571011529505610215296056103152970561041529805610515303056110153040561111530705611415306056113153080561151530905611615313056120153120561191531405612115315056122153190561261584105712615320056127153210561281532205612915323056130153300561371532905613615331056138158530571381534305615015342056149153440561511480405515115345056152153460561531534705615414807055154153490561561535005615715352056159153510561581535305616015875057160153540561611535505616215363056170153640561711536605617300000000000))
 (.node 1 (.leaf 1536705619900000000000153680562000000000000015369056201000000000001537005620300000000000153740562071537305620615375056208148410552081537705621015376056209153790562121537805621115380056213158970572131538105621400000000000153820562150000000000015383056216000000000001538405622600000000000153850562270000000000015386056229000000000001538705623000000000000153880562600000000000015389056261000000000001539305626515392056264153960562681591205726815399056271153980562701540305627500000000000154040562930000000000015405056294000000000001540605634600000000000154070563690000000000015412056374154110563731541305637515414056376154180563801541905638115420056382159340573821542205638415423056385154250563871542605638815427056389148980553891543105639315432056394154360564051543705640615440056409154390564081544305641215956057411154460564151596005741515451056420159660574211545405642315967057423154550564241596705742315466056435154650564341546705643615981057437154680564371494105543715471056440154700564391547305644215472056441154740564431547505644415477056446149490554451547805644715991057447154790564481495205544815480056449149540554501548605645515485056454154880564571548705645615489056458149620554581549005645915491056460155030564721601605747215509056478155080564771551005647916024057480155110564801498505548115512056481160260574821551305648214987055483155150564841551405648315516056485149880554841551705648616030057486)
 (.leaf 1552005648915519056488155210564901603305748915522056491155230564921552905649816042057498155300564991604205749815531056500160430574991553405650316047057503155360565051604805750415537056506160500575061553805650716051057507155450565141554405651315546056515150180555141554705651615019055515155510565201606405752015556056525160680575241556005652915559056528155610565301556205653115564056533155630565321556505653415566056535155670565361556805653715574056543155730565421557505654415048055544155990565681560005656915603056572156040565731560805657715609056578156110565801561005657915612056581156130565821561405658315615056584156170565861561605658515618056587156190565881562005658916133057589156210565901509405559015622056591161350575911562305659216137057593156290565981562805659715630056599156310566001563405660315633056602156350566041614905760515636056605151100556061563705660616150057606156380566071511205560815639056608161530576091564505661415644056613156460566151616005761615654056623156550566241565905662815660056629156650566341566405663315667056636156660566351567005663915669056638156710566401618505764115673056642156740566431567505664416189057645156760566451618905764515677056646161900576461567805664716191057647156790566481619105764715680056649156810566501568405665315685056654156860566551620005765615687056656151600556561569105666015692056661156940566631569305666215695056664156960566651570105667015700056669)))
 (.node 2 (.node 1 (.leaf 1570205667115703056672157070566760000000000015710056679000000000001571305668215712056681157140566831622305768415715056684000000000001571605668500000000000157170566860000000000015718056687000000000001571905668800000000000157200566891519205568915728056697157270566961573005669915729056698157320567011623705770015733056702162390577021573405670315735056704157390567080000000000015740056709000000000001574105671000000000000157420570270000000000015743057028000000000001574605703115745057030157490570341574805703315750057035162500580351575205703715751057036157550570401523305604015757057042157560570411575805704315235056042157590570441576005704515762057047157610570461576705705215766057051157680570531576905705415772057057000000000001577405705900000000000157770570621577605706115778057063000000000001577905706400000000000157800570651628005806515781057066000000000001578305706815782057067157840570691578505707015792057077157910570761579305707815271056078157940570791579505708015798057083157970570821579905708416299058084158000570851630005808515801057086163000580851580205708715280056087158030570881528005608715807057092158080570931581105709615810057095158120570971631305809815813057098163140580991581405709916315058100158170571021581605710115819057104163190581041582005710516319058104158230571081530205610915832057117158310571161583305711815311056118158500571351584905713415856057141158550571401585805714315857057142)
 (.leaf 1585905714416358058143158600571451533805614515861057146158620571471586305714815341056148158690571541534805615515870057155153480561551587405715915873057158158880572040000000000015891057207158900572061589805721416399058214158990572151590005721615901057217000000000001590305722900000000000159040572300000000000015905057261000000000001590605726200000000000159070572630000000000015908057264000000000001590905726500000000000159150572711591405727015916057272159170572731591805727400000000000159190572750000000000015920057346000000000001592105736900000000000159280573761592705737515929057377159300573781593105737915932057380159330573811643905838115935057383164420583841593805738616444058386159410573891644705838915942057390159430573911595405740915953057408159550574101595605741115959057414159600574151596305741816471058419159640574191596505742015970057426159690574251597105742716476058427159720574281597305742915978057434159770574331597905743516484058435159800574361598105743715982057438154690564381598405744015983057439159850574411598605744215994057450159930574491599505745115482056451160020574581600105745716003057459160040574601600605746216005057461160090574651600805746416010057466160110574671601305746916012057468160140574701550005646916017057473165220584731602005747616019057475160220574781602105747716023057479160240574801602805748416533058484160290574851653505848616031057487160300574861603205748816538058489))
 (.node 1 (.leaf 1603505749116540058491160360574921603705749316074057530160730575291607505753116580058531160760575321658105853216077057533165820585331607805753416079057535160820575381608305753916084057540160830575391608605754216085057541160870575431557305654216091057547160900575461609305754916092057548160940575501558005654916095057551160960575521609805755416097057553161020575581610105755716103057559155890565581610405756016105057561161080575641610705756316109057565161100575661611105756716110057566161120575681559805656716113057569161140575701612005757616119057575161250575811612405758016126057582161270575831613005758616636058587161310575871613205758816136057592161370575931613905759516138057594161400575961562705659616141057597161420575981614305759916144057600161460576021665105860216147057603161480576041615105760716657058608161520576081665805860916155057611161560576121616205761815649056618161630576191565005661916165057621156510566201616605762215653056622161670576231667305862416168057624161690576251617005762616171057627161760576321617505763116183057639161820576381618405764016185057641161860576421618505764116187057643161880576441619205764816697058648161930576491669805864916194057650161950576511619605765216701058652161980576541619905765516204057660162030576591620705766316206057662162080576641620905766516210057666162090576651621105766715698056667162120576681569905666816213057669156990566681621405767016720058671)
 (.leaf 1621505767116216057672162170576730000000000016219057680162180576791622005768116221057682162220576830000000000016225057688162240576871622605768916227057690162280576911572305669216229057692167320586921623005769316733058693162320576951623105769416236057699162350576981624005770316241057704162420577050000000000016243057706000000000001624805803316247058032162490580341625005803516253058038162520580371625405803915753057038162550580401625605804116257058042162580580431626005804516765059045162610580461576005704516263058048162620580471626705805216266058051162680580531677205905216269058054162700580551627205805700000000000162740580590000000000016275058060000000000001627605806100000000000162770580621627805806316279058064000000000001628105806600000000000162820580670000000000016284058069162830580681628705807216286058071162880580731628905807416290058075162890580741629105807615791057076162930580781629205807716294058079162950580801629605808116297058082162980580831629905808416306058091158060570911630805809316309058094163110580961631005809516312058097163130580981631705810216318058103163200581051682505910516321058106158220571071632205810716828059108163230581081632405810916325058110168310591111632605811116831059111163270581121632805811316329058114168340591141633005811515830057115163310581161633205811716335058120158350571201633705812215837057122163380581231633905812416341058126163400581251634205812715842057127))))
 (.node 4 (.node 2 (.node 1 (.leaf 1634405812915844057129163460581311634705813216352058137163510581361636005814516359058144163610581461636205814716365058150163660581511636805815316873059153163690581541687305915316373058158163740581591637905816416380058165163870582020000000000016388058203000000000001639105820616390058205163940582091689605920916395058210163960582111639805821316399058214164010582161690305921616402058217169030592161640305821815902057219164040582191690605921916405058220000000000001640605822100000000000164070582230000000000016408058224000000000001640905823000000000000164100582630000000000016411058264000000000001641205826500000000000164130582660000000000016414058267000000000001641505826800000000000164160582690000000000016417058270000000000001641805827116419058272164200582730000000000016421058274000000000001642205835600000000000164230583570000000000016424058358000000000001642505836100000000000164260583620000000000016427058369000000000001643105837316430058372164330583751643205837416434058376164350583771643805838016931059380164490583911694205939116450058392164510583931645505840316454058402164560584041695305940316457058405169540594041645905840716458058406164600584081595205740716461058409169590594091646205841016960059410164630584111696105941116464058412169620594121646605841400000000000164670584150000000000016468058416000000000001646905841700000000000164790584301647805842916480058431159750574311648105843215976057432)
 (.leaf 1648205843315976057432164830584341698105943416485058436164840584351648805843916487058438164890584401698805944116490058441169880594411649105844215986057442164920584431649305844416496058447164950584461649705844816995059448165050584561650405845516508058459160040574601651205846316511058462165130584641701205946516515058466165140584651651605846717014059467165170584681701505946816518058469170170594701651905847017018059471165200584711701805947116521058472170180594711652305847417021059474165270584781652605847716528058479165290584801653105848217029059482165320584831653305848416534058485170320594851653705848816536058487165410584921703905949216542058493170400594931654505849616546058497165490585001604305749916552058503160470575031655305850416554058505165550585061604905750516558058509160540575101655905851016560058511165650585161706305951616568058519165670585181656905852016064057520165700585211706805952116571058522165720585231657305852416572058523165740585251707205952516575058526170730595261657605852717073059526165770585281707405952716578058529170750595281657905853016580058531165850585361658605853716591058542165900585411659205854316593058544165990585501659805854916600058551160960575521660105855216097057553166020585531609705755316605058556166040585551660705855816606058557166080585591710505955816609058560166100585611661105856216610058561166150585661661405856516617058568166160585671661805856916619058570))
 (.node 1 (.leaf 1662005857116621058572166230585741662405857516625058576166240585751662905858016628058579166300585811712805958116631058582171290595821663205858316633058584166340585851663505858616643058594166420585931664405859517141059594166450585961664605859716648058599166470585981664905860017148059601166660586171716405961716667058618171660596191666805861917166059619166690586201616405762016670058621171680596211667405862516675058626166830586341668205863316685058636166840586351668605863717184059637166870586381668805863916689058640166900586411669105864217189059642166920586431719105964416693058644166940586451669905865017197059650167020586531720005965316703058654172010596541670405865517203059656167050586561720305965616706058657167070586581670805865916707058658167090586601620505766116710058661172070596601671105866216206057662167120586631620605766216713058664167140586651671605866717214059667167170586681721505966816718058669172170596701671905867017217059670167210586790000000000016722058680000000000001672305868100000000000167240586820000000000016725058685000000000001672905868916728058688167300586901673105869116735058695162330576961673605869600000000000167370586970000000000016741058701000000000001674205870200000000000167430587030000000000016744058704000000000001674505902500000000000167460590260000000000016747059027000000000001674805902800000000000167490590290000000000016752059032167510590311675305903317241060033)
 (.leaf 1675405903416755059035167570590371675605903616760059040167590590391676105904116762059042167630590431725106004316764059044167650590451676605904616765059045167690590491677005905016773059053167740590541677505905500000000000167760590560000000000016778059058167770590571678005906016779059059167810590611726806006116782059062167830590631678405906400000000000167850590650000000000016786059066000000000001678705906700000000000167880590680000000000016789059069000000000001679105907100000000000167920590720000000000016793059073000000000001679405907400000000000167950590750000000000016796059076172720600761679705907717273060077167980590781727306007716799059079172750600791680105908117276060080168020590821680305908316805059085168040590841680605908616301058086168080590881680705908716809059089168100590901681205909217288060092168160590961681505909516817059097172920600961681805909816819059099168240591041730006010416826059106168250591051682705910717303060107168360591161683505911516837059117163320581171683905911916838059118168400591201633605812116841059121168420591221684505912516844059124168510591311685205913216856059136168550591351686105914116860059140168620591421733806014216863059143173380601421686505914516864059144168660591461636205814716867059147173430601471686805914817343060147168690591491687005915016871059151173460601501687205915216367058152168760591561687505915516877059157168780591581688205916216881059161)))
 (.node 2 (.node 1 (.leaf 1688305916316884059164168970592101689805921116902059215169030592161690405921716905059218169080592230000000000016909059224000000000001691005923000000000000169110592310000000000016912059269000000000001691305927000000000000169140592710000000000016915059272000000000001691605927300000000000169170593190000000000016918059320000000000001691905935600000000000169200593570000000000016921059370000000000001692505937416924059373169260593751692705937616932059381174070603821693505938417409060384169360593851741106038616938059387174110603861693905938817414060389169400593891694105939016946059395169470593961694805939700000000000169490593990000000000016950059400000000000001695105940100000000000169520594020000000000016955059405000000000001695605940600000000000169570594071742606040616958059408000000000001696405941700000000000169650594180000000000016966059419000000000001696705942016473058421169760594291697505942816977059430169780594311697905943216980059433169830594361745206043616984059437164860584371698505943816487058438169860594391745506043916990059443164930584441699105944416494058445169920594451699305944616997059450174670604511699805945117467060451170020594551700105945417004059457170030594561700705946017477060461170080594611651005846117011059464170100594631702305947617022059475170240594771652505847617025059478170260594791702805948117497060481170300594831702905948217031059484175010604851703305948617502060486)
 (.leaf 1703405948717035059488170410594941654305849417042059495170430594961704705950016550058501170480595011704905950217052059505170510595041705705951017058059511170600595131656305851417067059520170660595191707005952317069059522170710595241707205952517079059532170780595311708005953316582058533170810595341708205953517089059542170880595411709005954317559060543170910595441709205954517093059546165940585451709405954717563060547170950595481709605954917097059550170980595511710205955517103059556171160595691711705957017124059577171230595761712605957917125059578171270595801712805958117133059586171340595871713605958916639058590171420595951761106059517143059596171440595971715005960317149059602171510596041715205960517156059609171570596101715905961217629060613171600596131763006061417161059614176310606151716205961517632060616171630596161763306061717165059618176340606181717005962317640060624171710596241764106062517172059625176410606251717305962617643060627171830596361765206063617190059643171910596441719205964517662060646171950596481766406064817198059651171990596521720605965917205059658172080596611767706066117209059662172100596631721105966417210059663172120596651721305966617219059684000000000001722205968717692060688172230596881672705868717224059689000000000001722605969100000000000172270596920000000000017228059693000000000001722905969400000000000172300596950000000000017231059698000000000001723305970000000000000))
 (.node 1 (.leaf 1723405970100000000000172350600250000000000017236060026000000000001723706002700000000000172380600280000000000017239060031000000000001724006003200000000000172420600340000000000017243060035000000000001724706003917246060038172480600401770106104017249060041177030610421725006004217703061042172590600511725806005017260060052000000000001726106005300000000000172620600540000000000017263060056000000000001726406005700000000000172650600580000000000017266060059000000000001726706006000000000000172690600620000000000017270060064000000000001727106007000000000000172740600780000000000017277060081000000000001727806008217720061082172790600831728006008417282060086172810600851728306008716807059087172840600881772606108817285060089168100590901728606009017287060091172890600931728806009217290060094172910600951729406009817293060097172950600991682005910017296060100172970601011730406010817747061109173050601091730606011017309060113168330591131732006012417319060123173250601291732406012817326060130173270601311732806013217329060133173310601351685505913517334060138173330601371733506013917778061140173400601441778106114317341060145177830611451734206014617784061146173440601481734306014717345060149173460601501734706015117789061151173480601521778906115117349060153168740591541735006015417351060155173520601561735306015717358060162173570601611735906016317360060164173610601651736206016617363060167168880591681736406016817365060169)
 (.leaf 1737106020817370060207173730602101737206020917374060211178170612111737506021217818061212173760602131737706021417384060229000000000001738506023017386060231173870602320000000000017388060270000000000001738906027100000000000173900602720000000000017391060273000000000001739206031900000000000173930603200000000000017394060357000000000001739506037000000000000173960603710000000000017398060373173970603721739906037417840061374174000603751740106037617406060381000000000001740806038317849061383174120603871785306138717413060388178540613881741506039017856061390174180603931786006139417419060394178610613951742006039517862061396174210603961742206039717423060398000000000001742406040400000000000174250604050000000000017427060407000000000001742806040800000000000174300604120000000000017434060418174330604171743506041900000000000174380604221743706042117439060423169690594221744306042717442060426174450604291744406042817446060430174470604311745006043416981059434174510604351698205943517453060437174540604381745606044017902061441174570604411790206144117458060442169890594421746306044717462060446174640604481790906144817465060449179100614491746806045216999059452174690604531791406145317470060454174710604551747206045617471060455174730604571700505945817474060458170050594581747506045917920061459174760604601747706046117479060463174780604621748006046417481060465174830604671748406046817487060471170190594721749006047417021059474))))))))
 (.node 64 (.node 32 (.node 16 (.node 8 (.node 4 (.node 2 (.node 1 (.leaf 1749206047617491060475174930604771793706147617494060478174950604791749806048217499060483175030604871750206048617504060488175050604891751806050217517060501175200605041751906050317521060505170510595041752306050717522060506175240605081705505950817525060509170560595091752806051217527060511175290605131705905951217530060514170610595141753106051517532060516175330605171706405951717541060525179860615251754406052817543060527175450605291799106153017546060530179910615301754706053117991061530175490605331754806053217550060534170820595351755106053517552060536175600605441800406154317561060545170920595451756206054617563060547175650605491756406054817566060550180100615491756706055118011061550175680605521756906055317570060554175710605551757306055717572060556175740605581802006155917575060559180210615601757606056018021061560175790605631757806056217580060564171110595641758406056817583060567175870605711758606057017588060572175890605731759106057517592060576175930605771759206057617594060578171250595781759506057917596060580175970605811759806058217607060591176060605901760806059217139059592176200606041762106060517624060608176230606071762506060917626060610176350606191808006161917636060620180810616201763706062117169059622176380606221808306162217639060623180840616231764406062817645060629176480606321764706063117649060633171790596321765406063817655060639176560606401810106164017657060641176580606421766306064718109061648)
 (.leaf 1766606065017667060651176750606590000000000017681060665176800606641768506068100000000000176860606820000000000017687060683172180596831768806068417220059685176890606851769006068617691060687000000000001769306068900000000000176940606900000000000017695060692000000000001769606070000000000000176990610381769806103717702061041181460620421770406104317705061044177110610501771006104917713061052000000000001771406105600000000000177150610570000000000017716061058000000000001771706105900000000000177180610800000000000017719061081000000000001772306108517722061084177240610861728106008517725061087177260610881772806109017727061089177290610911728706009117730061092172880600921773306109517732061094177340610961729106009517736061098177350610971773706109917738061100177400611021773906110117741061103177420611041774306110517742061104177540611161775306111517755061117181930621181775606111817313060117177570611191819406211917758061120173150601191775906112118197062122177600611221819806212317761061123177620611241776406112617763061125177650611271732206012617766061128173230601271776706112917324060128177680611301732706013117769061131177700611321777606113817775061137177910611531779006115217792061154173510601551779306115517794061156177960611581735506015917797061159177980611601779906116118236062161178000611621823706216217801061163178020611641780306116518241062166178040611661780506116717809061203000000000001781206120617811061205))
 (.node 1 (.leaf 1781606121017815061209178210612151782206121617823061217178240612181782706122100000000000178300612301782906122917831061231178320612321783306123300000000000178340613530000000000017835061354000000000001783606137000000000000178370613710000000000017839061373178380613721784106137517842061376178430613771784406137817846061380000000000001785006138418299062385178550613891785606139017863061397000000000001786406139800000000000178650613990000000000017866061405000000000001786706140600000000000178680614070000000000017870061409178690614081787206141117871061410178730614121742906041117874061413174310604131787506141400000000000178760614150000000000017880061419178810614201788206142117437060421178830614221788406142317886061425178850614241788806142717887061426178890614281789006142917898061437178970614361789906143817900061439179050614441835006244317906061445174600604441791106145017466060450179120614511746606045017913061452179140614531791506145417471060455179180614571791906145817928061467179270614661792906146817485060469179300614691793106147017936061475179350614741793806147717937061476179390614781794006147917946061485179470614861795006148917949061488179510614901750606049017952061491179530614921795506149417954061493179560614951795706149617959061498175140604981796006149918405062498179610615001751606050017962061501175170605011796506150417964061503179660615051796706150617972061511179730615121798406152317983061522)
 (.leaf 1798706152618432062525179880615271798906152817990061529179890615281799206153118438062531179940615331799306153217995061534184410625341799606153518442062535179970615361844206253517998061537179990615381800106154018000061539180020615411800306154218006061545180070615461801306155218012061551180140615531801506155418017061556180160615551801806155718464062557180220615611846806256118025061564180240615631802606156518472062565180270615661847406256718031061570180300615691803206157117586060570180330615721803406157318035061574180360615751803806157718037061576180390615781848506257818040061579180410615801804306158217599060583180470615861804606158518050061589180490615881805106159017605060589180520615911805306159218055061594180560615951806206160118063061602180650616041806606160518073061612185190626121807406161317629060613180750616141852206261518076061615176310606151807706161618078061617180820616211852906262218087061626185340626271808806162718089061628180900616291809106163018096061635180950616341809706163618543062636181040616431810506164418108061647000000000001811106165000000000000181120616510000000000018113061652000000000001811406165300000000000181150616540000000000018116061655000000000001811706165600000000000181180616570000000000018120061661000000000001812106166200000000000181220616630000000000018123061664000000000001812406166500000000000181250616660000000000018126061667000000000001812706166800000000000)))
 (.node 2 (.node 1 (.leaf 1812806166900000000000181290616700000000000018130061679000000000001813306168218132061681181340616831813506168418137061686000000000001813806168800000000000181390616890000000000018140062036000000000001814106203700000000000181420620380000000000018144062040000000000001814506204100000000000181480620440000000000018154062050181530620491815506205117712061051181560620520000000000018157062053000000000001815806208300000000000181590620840000000000018160062085000000000001816106208600000000000181620620870000000000018163062088000000000001816506209000000000000181660620911858606309118172062097181710620961817306209818593063098181740620991773806110018175062100177380611001817606210117739061101181810621061818006210518182062107177440611061818306210818184062109181850621101774806111018186062111177490611111819106211617753061115181920621171819306211818199062124177620611241820006212517762061124182030621281862306312818204062129186240631291820506213018206062131182090621341821006213518214062139182130621381821506214017777061139182210621461822006214518222062147182230621481822506215017788061150182280621531822906215418232062157182330621581824706217200000000000182480621730000000000018249062202000000000001825006220300000000000182590622121825806221118260062213182610622141826306221618264062217182700622230000000000018277062232182760622311827806223300000000000182790622340000000000018280062349000000000001828106235000000000000)
 (.leaf 1828306235200000000000182840623530000000000018285062354000000000001828706237218286062371182880623731871306337318289062374187140633741829106237618716063376182930623780000000000018295062381000000000001829606238200000000000182970623831871906338318298062384182990623851830206238818301062387183060623921830706239318309062395000000000001831006239600000000000183110624040000000000018312062405000000000001831306240600000000000183160624091831506240818318062411183170624101831906241218740063412183200624131832106241418328062421183270624201833406242718333062426183350624281875606342818336062429178910614301833706243018338062431183440624371876506343718346062439183450624381834706244018769063441183480624411790106144018349062442183500624431835106244418350062443183520624451790706144618353062446187750634471835406244718775063447183570624501877706344918361062454183600624531836206245518363062456183640624571836506245818368062461183670624601836906246218790063462183700624631792306146218371062464179250614641837206246517926061465183740624671837306246618375062468187970634691837606246918377062470183840624771838306247618385062478183860624791839206248518813063485183930624861839406248718397062490183960624891839806249118399062492184010624941840206249518409062502179630615021841606250917970061509184170625101797106151018418062511184190625121842106251417975061514184240625171842506251818428062521179820615211843306252618432062525))
 (.node 1 (.leaf 1843506252818856063528184360625291885706352918448062541184470625401844906254218450062543184540625471887406354618455062548188760635481845606254918457062550184620625551846106255418463062556184640625571846706256018466062559184760625691847506256818477062570188990635711847806257118479062572184810625741890306357518482062575184830625761848406257718906063578184930625861849206258518496062589184950625881849706259018498062591185050625981805906159818508062601185070626001851106260418510062603185130626061851406260718518062611180720616111853006262318084061623185320626251853306262618538062631185370626301854006263318539062632185450626381854606263918547062640185480626411854906264218970063642185510626620000000000018552062663000000000001855306266400000000000185540626650000000000018559062682185580626811856006268318561062684185620626850000000000018563062687000000000001856406268800000000000185650626890000000000018566063041000000000001856706304200000000000185680630440000000000018572063048185710630471857306304918153062049185740630500000000000018575063051000000000001857606305300000000000185770630540000000000018578063055000000000001857906305600000000000185800630850000000000018581063086000000000001858206308700000000000185830630880000000000018584063089000000000001858506309000000000000185890630941858806309318590063095185910630961859206309718593063098185960631011900506410118597063102181770621021859906310418598063103)
 (.leaf 1860006310518601063106186030631081860206310718604063109181840621091860506311018606063111186080631131860906311418610063115181900621151861606312118615063120186170631221902706412318619063124186200631251863306313818213062138186360631411863506314018637063142182170621421863806314318218062143186400631451821906214418644063149182240621491864506315018226062151186460631511822606215118647063152186480631531864906315418648063153186500631551905906415518651063156190590641551865306315818234062159186540631591865506316018656063161190660641621865706316218658063163186590631641866006316518667063172186680631731867006320300000000000186710632040000000000018673063206186720632051867506320818674063207186770632101867606320918678063211186790632121868606321918267062220186870632201826706222018688063221182680622211868906322218269062222186940632271827106222618696063229186950632281869706323018274062229186980632311869906323218702063235000000000001870306334500000000000187040633460000000000018705063347000000000001870606334900000000000187070633501911706435118708063351182820623511870906335200000000000187100633530000000000018711063371000000000001871206337200000000000187170633770000000000018718063382000000000001872106338518299062385187220633861830006238618723063387183010623871872606339018304062390187300633980000000000018731063403000000000001873206340400000000000187330634050000000000018734063406000000000001873506340700000000000))))
 (.node 4 (.node 2 (.node 1 (.leaf 1873806341018737063409187390634111874006341218744063416187430634151874506341718324062417187460634181832506241818747063419187480634201875306342518752063424187540634261833306242618757063429187560634281875806343018759063431187600634321875906343118761063433191670644321876206343418763063435187670634391876606343818768063440187690634411877206344418771063443187730634451877406344618780063452191860644511878106345319187064452187820634541919006445518783063455191900644551878706345918786063458187880634601836706246018794063466187930634651879506346718373062466187960634681879706346918806063478192120644771880706347918386062479188160634881881706348918819063491192260644911882006349218821063493188230634951882406349618829063501188280635001883006350218408062501188310635031841006250318832063504184100625031883306350518834063506188350635071841506250818836063508184150625081883706350918415062508188380635101883906351118842063514188410635131884306351518422062515188440635161884506351718850063522188510635231885806353018857063529188590635311843806253118860063532184390625321886106353318440062533188620635341926806453318863063535192690645341886406353618443062536188700635421887106354318879063551188780635501888006355218459062552188860635581888506355718890063562188910635631889406356618893063565188950635671847306256618897063569188960635681889806357018899063571189020635741890306357518908063580189070635791890906358118487062580)
 (.leaf 1891506358718914063586189160635881932306458818917063589193240645891891806359018919063591189200635921849906259218922063594185020625951892306359518924063596189250635971892406359618926063598185060625991892706359918506062599189290636011893006360218932063604185120626051894006361218941063613189440636161852406261718945063617185240626171894606361818525062618189470636191852706262018948063620185270626201894906362118950063622189510636231853106262418952063624189530636251895606362818957063629189590636311895806363018965063637189640636361896606363818544062637189690636410000000000018972063677000000000001897606368118975063680189770636821897806368318979063684000000000001898206404618981064045189830640471857006304618984064048000000000001898506404900000000000189860640510000000000018987064052000000000001898806405300000000000189890640540000000000018990064055000000000001899106408700000000000189920640880000000000018993064089000000000001899406409000000000000189950640910000000000018998064094189970640931899906409519000064096190020640981900106409719003064099185930630981900906410519008064104190100641061901106410719012064108186020631071901306410919424065109190140641101901506411119017064113190180641141902106411719020064116190230641191902206411819024064120194350651201902506412119026064122190280641241902906412519031064127190300641261903206412819033064129190360641321903506413119038064134190370641331903906413519450065135))
 (.node 1 (.leaf 1904006413618631063136190440641401904306413919045064141194570651421904706414319046064142190480641441863906314419049064145186410631461905006414618642063147190520641481864306314819053064149186430631481905406415019055064151190570641531864806315319058064154194700651551906106415719060064156190620641581906306415919067064163194780651631906806416419479065164190690641651948006516519070064166190710641671907406417019075064171190760641721907706417319079064205000000000001908206420819081064207190840642101908306420919085064211190860642121908906421518683063216190900642161909106421719092064218190930642191910506423119104064230191060642321870006323319107064233187010632341910806423419109064235191100642360000000000019111064345000000000001911206434600000000000191130643470000000000019114064348000000000001911506434900000000000191160643501911706435119120064354000000000001912106435500000000000191220643560000000000019123064379000000000001912406438000000000000191250643810000000000019128064385195460653841912906438619547065385191300643871954806538619131064388187240633881913206438918725063389191330643901955206539019134064391187270633911913506439219136064393191370643960000000000019138064397000000000001913906439800000000000191410644040000000000019142064405000000000001914506441019144064409191480644131914706441219149064414191500644151915206441719151064416191530644181915406441919155064420191540644191915606442119157064422)
 (.leaf 1916006442519159064424191610644261916206442719164064429195850654291916506443019166064431191680644331916706443219169064434195910654351917006443518763063435191720644371876506343719178064443187700634421917906444419600065444191800644451960106544519183064448191820644471918406444919606065450191880644531918906445419194064459196150654591919506446019615065459191960644611961706546119197064462196180654621919806446318791063463191990644641879206346419200064465187930634651920306446819202064467192040644691962406546819206064471192050644701920706447219208064473192090644741920806447319210064475196300654741921106447619632065476192130644781921206447719214064479188080634801921506448019216064481192240644891964506548919225064490196470654911923106449618824063496192440645091924306450819245064510188390635111924606451119247064512192480645131884006351219251064516192520645171925306451818847063519192570645221925606452119258064523192590645241927206453719271064536192730645381886606353819274064539188660635381927506454018868063540192760645411886806354019282064547192810645461929106455619290064555192920645571971206555619295064560192940645591929706456219296064561192980645631929906456419301064566197210655651930206456719724065568193030645681889606356819305064570193040645691930606457119307064572193080645731930906457419312064577193110645761931406457919313064578193160645811891006358219321064586189140635861932806459318921063593)))
 (.node 2 (.node 1 (.leaf 1932906459419330064595193330645981933406459919335064600189280636001933606460118928063600193370646021893006360219339064604189330636051934006460518933063605193430646081934206460719345064610193440646091934606461118939063611193470646121934806461319350064615193490646141935106461618943063615193520646171977406561819353064618193540646191935806462319357064622193590646241936006462519362064627189550636271936306462818957063629193640646291895706362919372064637193710646361937306463818967063639193740646391979506563919375064640000000000001937706467400000000000193780646750000000000019381064678193800646771938306468019382064679193840646811938506468219388064685000000000001938906468600000000000193900650190000000000019391065042000000000001939206504300000000000193930650441898006404419394065045189800640441939506504600000000000193960650470000000000019397065050000000000001939806505100000000000193990650520000000000019400065053000000000001940106505400000000000194020650550000000000019403065088000000000001940406508900000000000194050650900000000000019406065091000000000001940706509200000000000194100650951940906509419412065097194110650961941306509819827066098194150651001941406509919416065101190040641001941706510219007064103194180651031983206610319419065104190080641041942006510519421065106194220651071983706610819426065111194250651101942706511219428065113194300651151943106511619433065118198470661181943406511919847066118)
 (.leaf 1943706512219852066123194380651231943906512419441065126190300641261944306512819442065127194460651311944506513019447065132198600661311944806513319863066134194490651341945006513519452065137194510651361945406513919453065138194550651401945606514119459065144194580651431946006514519461065146194630651481946406514919466065151194670651521947106515619470065155194720651571947306515819474065159198880661591947506516019476065161194850651701948606517119488065173194890651741949106517600000000000194930651780000000000019497065208194960652071949806520919499065210195020652131950106521219503065214195040652151950906522019095064221195110652221909606422219512065223190970642231951306522419098064224195150652261951406522519516065227191000642261952006523119519065230195210652321952206523319526065237000000000001952706534500000000000195280653460000000000019529065347000000000001953006534800000000000195310653491953206535019533065351191180643521953406535219119064353195350653531953606535419538065356000000000001953906537700000000000195400653780000000000019541065379000000000001954206538000000000000195430653810000000000019544065382000000000001954506538300000000000195490653871996806638719550065388199680663871955106538919970066389195550653930000000000019556065394000000000001955706539600000000000195580653970000000000019559065402000000000001956106540419140064403195620654050000000000019563065406000000000001956706541119568065412))
 (.node 1 (.leaf 1956906541319987066413195700654141998706641319571065415195720654161957606542019577065421195790654231915906442419580065424191590644241958106542519999066425195820654262000006642619583065427191630644281958406542819585065429195860654302000406643019587065431195880654321959306543719594065438195960654401917506444019597065441191750644401959806544220017066443196030654471960206544619604065448196050654491960906545319608065452196100654542002806645419611065455191910644561961206545619191064456196130654571961406545819620065464196190654631962106546520038066464196220654662004006646619623065467200410664671962806547219629065473196330654771963206547619635065479196340654781963606548019637065481196390654832005806648419640065484196410654851964206548620061066487196430654872006206648819644065488196450654891965206549619232064497196530654971965406549819655065499192340644991965606550019234064499196580655021965706550119659065503192370645021966006550419238064503196680655121966706551119669065513192470645121967006551419249064514196710655151925006451519672065516192520645171967306551719674065518196750655191925406451919682065526192620645271968306552719262064527196850655291968406552819686065530192650645301968906553319688065532196990655431969806554219700065544192780645431970106554519280064545197030655471970206554619704065548197050655491970606555019705065549197140655581971306555719716065560197150655591971806556219296064561)
 (.leaf 1971906556319720065564197260655701972506556919727065571201450665711973506557919734065578197370655811973606558019742065586197410655851974506558919744065588197470655911974606559019750065594197490655931975106559519330064595197520655961975306559719755065599193340645991976006560420178066604197630656071976406560819765065609201840666101976606561019767065611197710656151977006561419772065616197730656171977606562019355064620197800656241977906562319783065627202020666281978406562819785065629197880656321936606463119789065633197900656341979106563519792065636197930656370000000000019794065638000000000001979706567419376064673197980656751937906467619799065676193790646761980206567919801065678198030656802022106668119804065681198050656821980906604000000000000198100660410000000000019812066043198110660421981306604400000000000198140660450000000000019815066046000000000001981606605100000000000198170660520000000000019818066089000000000001981906609000000000000198200660910000000000019821066092000000000001982206609300000000000198230660940000000000019828066099198270660981982906610020245067101198300661011983106610219834066105194210651061983506610620250067106198360661071983706610819840066111202550671111984106611219842066113198460661171984706611819849066120198480661191985006612119851066122198560661271985506612619857066128198580661291985906613020275067131198620661331986106613219871066142202870671431987206614320287067143)))))
 (.node 8 (.node 4 (.node 2 (.node 1 (.leaf 1987306614419458065143198750661461987406614519877066148198760661471987806614920292067148198790661501988006615119882066153202970671531988506615620301067157198860661571988706615819892066163194790651641989306616419479065164198940661651989506616619898066169203130671691989906617019900066171199060661771949206517719909066180000000000001991206618300000000000199130662000000000000019914066201000000000001991506620600000000000199220662131992106621219923066214195040652151992706621819507065218199280662191950806521919929066220195080652191993306622419932066223199370662281993606622719938066229195170652281994006623119939066230199410662321994206623319946066237000000000001994706634400000000000199480663450000000000019949066346000000000001995006634700000000000199510663480000000000019953066350199520663491995406635119955066352199560663532037306735419957066354199580663551995906637600000000000199620663791996306638019964066381000000000001996906638820384067388199710663902038606739019972066391203870673911997306639200000000000199740663930000000000019975066396000000000001997706640319976066402199790664051997806640419980066406199810664071998806641419987066413199890664151957206541619990066416195720654161999206641820405067417199930664191957506541919994066420199950664211999606642219578065422199970664232041106742319998066424204120674242000206642820001066427200030664292000406643020009066435200080664342001106643720010066436)
 (.leaf 2001206643820013066439200150664412001606644220018066444204330674452001906644520433067445200220664482043606744820027066453200280664542003006645620029066455200310664572044406745620032066458204460674582003306645919616065460200340664602003506646120039066465204530674652004306646920456067468200440664702004506647120046066472204600674722004806647420047066473200510664772005006647620052066478204660674782005506648120056066482200570664832005806648420067066493196490654932006806649419650065494200690664951965106549520070066496200710664972007206649819654065498200730664992007406650020076066502200750665012007706650320078066504200850665112008406651020092066518200910665172009306651920094066520200950665211967806552220096066522196790655232009706652319680065524201000665261968106552520104066530201030665292010506653120106066532201130665392011206653820119066545201200665462012206654820121066547201230665492012406655020126066552201250665512012706655319709065553201280665541971006555420131066557197130655572013306655920132066558201340665602013506656120139066565201400665662014206656820141066567201460665722014706657320148066574197300655742015106657720150066576201530665792015206657820155066581197380655822015906658520158066584201600665861974106558520161066587197430655872016306658920162066588201640665902016506659120167066593201660665922016806659420169066595201710665971975306559720172066598205860675982017306659919756065600))
 (.node 1 (.leaf 2017406660019757065601201750666012017606660220179066605197610656052018006660619762065606201810666071976406560820182066608201830666092018606661220185066611201870666131976906561320188066614201890666152019906662520198066624202030666291978506562920205066631202040666302020706663320206066632202080666341979006563420209066635202100666362021806667820217066677202190666792022006668020222066682202210666812022306668319806065683202240666842022506668520226066686000000000002022806704020227067039202290670412023006704220232067050000000000002023306705100000000000202340670900000000000020235067091000000000002023606709200000000000202370670930000000000020238067094000000000002023906709500000000000202400670960000000000020243067099202420670982024406710020245067101202510671072066606810820252067108202530671092026706712320266067122202700671262026906712520271067127202720671282027706713319861066132202800671361986606613720281067137198660661372028306713920282067138202840671402028506714120286067142207000681422028806714420287067143202910671472029006714620293067149202920671482029406715020708068150202950671511988006615120296067152207100681522029906715520300067156203040671602030506716120306067162203070671632031606717220317067173203200671761990506617620321067177207350681772032206717819907066178203230671792032406718020325067181199110661822032906720000000000000203300672010000000000020331067202000000000002033706721120336067210)
 (.leaf 2033806721219920066211203390672132075706821320340067214207580682142034106721519924066215203420672161992506621620343067217199260662172034506721920346067220203500672242034906722320352067226203510672252035506722920354067228203570672312035606723020358067232203590672332036306723700000000000203640672380000000000020365067346000000000002036606734700000000000203680673492036706734820369067350207870683502037006735120371067352203750673772037406737620376067378199610663782037706737919963066380203780673800000000000020379067381000000000002038006738400000000000203820673862038106738520383067387203840673882038806739200000000000203890673930000000000020391067403203900674022039306740520392067404203940674061998106640720395067407199810664072039706740920396067408203980674101998306640920399067411199850664112040106741320400067412204020674141998706641320403067415208200684152040406741619991066417204060674182040506741720407067419204080674202041006742220827068422204140674262041306742520418067430204190674312042006743220006066432204210674332083806843320422067434200080664342042306743520840068435204240674362084106843620425067437208420684372042606743820844068439204270674392042806744020447067459208630684582044806746020449067461204510674632045006746220452067464200380664642045406746620453067465204550674672087206846720458067470204570674692045906747120876068471204610674732087806847320464067476204630674752046806748020054066480)))
 (.node 2 (.node 1 (.leaf 2046906748120470067482204820674942048306749520486067498204870674992049006750220489067501204910675032049206750420496067508204970675092050006751220917068512205010675132091806851320507067519205060675182051006752220509067521205110675232009806652420512067524200990665252051306752520514067526205160675282051506752720518067530205170675292051906753120106066532205210675332052006753220522067534201080665342052506753720524067536205260675382011206653820530067542205290675412053106754320117066543205320675442011806654420533067545201200665462054306755520130066556205450675572054606755820548067560205470675592054906756120550067562205540675662055306756520557067569201430665692055806757020559067571205610675732014706657320562067574205630675752056406757620563067575205660675782056506757720567067579209840685792056806758020154066580205690675812015606658220574067586205730675852057506758720576067588205820675942058106759320583067595210000685952058706759920586067598205880676002100506860020589067601205900676022059406760620593067605205950676072101106860620596067608201830666092059706760920598067610205990676112059806761020606067618206070676192060906762120610067622206130676252061206762420615067627206140676262061706762920202066628206200676322061906763120621067633202060666322062206763400000000000206230676350000000000020624067636000000000002062506767100000000000206270676732062606767220628067674202130666732063006767620216066676)
 (.leaf 2063906768500000000000206400676860000000000020641068035000000000002064206803600000000000206430680370000000000020644068038000000000002064506803900000000000206460680400000000000020647068041000000000002064806804200000000000206490680910000000000020650068092000000000002065106809300000000000206520680940000000000020653068095000000000002065406809600000000000206550680970000000000020656068098000000000002065706809900000000000206580681002106806910020659068101206600681022066106810321072069104206640681062066506810720669068111206700681122067106811320670068112206720681142025806711420673068115206740681162067706811920678068120206790681212068006812220684068126206850681272068606812820687068129206880681302027406713020689068131206900681322069106813320692068134206930681352027806713420694068136206950681372069706813920282067138206980681402069906814120718068160207170681592072506816720724068166207260681682072706816920732068174203180671742073606817820735068177207370681792114806918020738068180203240671802073906818120326067182207400681822074106818320745068187000000000002074606818800000000000207470682000000000000020748068201000000000002074906820500000000000207600682162075906821520762068218207610682172076306821920764068220207700682262076906822520772068228207710682272077606823220775068231207770682332036006723420778068234207790682352078306823900000000000207840683470000000000020785068348000000000002078606834900000000000))
 (.node 1 (.leaf 2078906835220788068351207900683532079106835420793068356000000000002079606837820795068377207970683790000000000020798068380000000000002079906838100000000000208000683820000000000020801068383000000000002080206838400000000000208050683872080406838620808068403208070684022080906840421236069404208100684052081106840620812068407203960674082081306840821239069407208140684092039606740820816068411208150684102081706841220400067412208240684192082306841820825068420204080674202082606842120409067421208310684262083006842520832068427212590694272083306842820417067429208350684302083406842920836068431208370684322084506844021272069440208460684412042906744120847068442208480684432085106844620434067446208520684472127806944620853068448204360674482085406844920438067450208550684502085606845120858068453208590684542086006845520861068456208650684602086406845920866068461212930694612087706847220876068471208830684782088206847720885068480208840684792088606848120887068482208900684852089106848620894068489208950684902089906849420900068495209020684972090306849820904068499209030684982090506850020488067500209060685012048906750120907068502209080685032092606852120925068520209280685232092706852220929068524209300685252093306852820932068527209370685322052006753220938068533205200675322093906853420523067535209410685362052306753520948068543209490685442095106854620534067546209520685472053406754620954068549209530685482095506855020538067550)
 (.leaf 2095806855320957068552209610685562096006855520963068558209640685592096506856020964068559209660685612139406956220967068562213940695622097006856520971068566209720685672097306856820974068569209730685682097506857020976068571209780685732140506957320979068574209800685752098206857720981068576209830685782141006957820987068582209880685832099006858520991068586209940685892099506859020997068592209960685912100206859721001068596210030685982058606759821004068599210050686002101206860721011068606210130686082143906960721015068610210140686092101606861120600067612210170686122101806861321021068616214480696162102206861720605067617210230686182145006961821024068619206080676202102506862020608067620210260686212145206962021027068622206110676232102806862320611067623210290686242061206762421030068625214560696242103106862620614067626210320686272061406762621033068628206160676282103406862921035068630210360686312103706863221038068633000000000002103906863400000000000210430686742104206867321044068675206290676752104506867620629067675210460686772063106767721049068680210480686792105006868121051068682210520686830000000000021053069033000000000002105406903400000000000210550690350000000000021056069036000000000002105706903700000000000210580690380000000000021059069040000000000002106006909200000000000210610690930000000000021062069094000000000002106306909500000000000210640690960000000000021065069097000000000002106606909800000000000))))
 (.node 4 (.node 2 (.node 1 (.leaf 2106706909900000000000210700691022106906910121075069107210760691082107706910921078069110210830691152108406911621085069117206750681172108706911920676068118210880691202108906912121092069124210910691232109406912621093069125211010691332110206913421103069135211020691342110406913621531070136211070691392110606913821108069140215350701402110906914121110069142211110691432111206914421113069145211120691442112106915321122069154211230691552071306815521124069156207140681562112506915720716068158211260691582112706915921129069161207190681612113006916221131069163211350691672113606916821137069169211380691702114606917821145069177211470691792114806918021152069184211510691832115306918520743068185211540691862074406818621155069187211560691882115906919100000000000211610691930000000000021163069195000000000002116406920300000000000211800692192118106922021185069224207670682232118606922520768068224211870692262161807022721188069227211890692282119306923221192069231211940692332119506923421203069242000000000002120406934300000000000212050693440000000000021208069347000000000002120906934800000000000212100693490000000000021211069350000000000002121206935121646070351212130693522164707035221214069353216480703532121506935421648070353212160693552121706935621219069376000000000002122106937821220069377212220693790000000000021223069380000000000002122406938100000000000212250693820000000000021226069383000000000002122706938400000000000)
 (.leaf 2122806938500000000000212290693860000000000021230069387000000000002123106938800000000000212320693890000000000021233069390000000000002124206941021241069409212440694122124306941121245069413212460694142124806941620821068416212560694242125506942321257069425216980704252125806942621699070426212600694282125906942721262069430217030704302126306943121264069432212660694342126706943521270069438217110704382127106943921272069440212730694412171507044221274069442217150704422127606944420849068444212790694472127806944621280069448212810694492128506945321284069452212860694542128706945521295069463212940694622129706946520871068466212990694672087306846821300069468208740684692130106946921302069470213060694742130506947321312069480213130694812131906948721320069488213230694912132206949021326069494213270694952132906949721330069498213330695012133206950021334069502213350695032134206951021783070510213430695112178407051121344069512217840705112134506951321786070513213460695142178707051421348069516213470695152135006951821349069517213550695232135406952221366069534213670695352136906953720942068537213700695382094306853821377069545213760695442138106954921382069550213830695512095606855121385069553213840695522138806955621387069555213890695572096206855721391069559213900695582139706956521396069564214000695682139906956721401069569218420705692140306957120976068571214040695722097706857221409069577214080695762141206958021411069579))
 (.node 1 (.leaf 2141306958120986068581214150695832141406958221416069584209890685842142206959021863070590214280695962142706959521434069602210070686022143506960321009068604214360696042143706960521440069608214410696092144406961221443069611214450696132188607061321447069615214460696142144906961721890070617214510696192189207061921453069621218940706212145406962221895070622214550696232145606962421459069627214580696262146006962821461069629214620696300000000000021463069631000000000002146406963200000000000214650696340000000000021466069635000000000002147106967521470069674214720696762147306967721476069680214750696792147706968121478069682214800696910000000000021481069692000000000002148207003000000000000214830700310000000000021484070032000000000002148507003300000000000214860700340000000000021487070092000000000002148807009300000000000214890700940000000000021490070095000000000002149107009600000000000214920700970000000000021493070098000000000002149407009900000000000214960701012149707010221499070104219400711032150107010621502070107215060701112194807111121507070112219500711132150907011421508070113215110701162151007011521513070118215120701172151407011921515070120215160701212108906912121517070122210910691232152207012721521070126215230701282109706912921524070129219670711302152507013021099069131215270701322152807013321533070138215320701372153407013921535070140215400701452153907014421542070147211150691472154507015021546070151)
 (.leaf 2155107015621993071156215520701572155307015821558070163215590701642156107016621560070165215670701722156607017121570070175211440691762157107017621145069177215750701802114906918121577070182211500691822158507019021158069190215870701922116006919221589070194211620691942159007019500000000000215910702000000000000021592070201000000000002159607020521595070204215990702082159807020721600070209211690692082160307021221602070211216080702172160707021621609070218211790692182161007021921611070220216130702222161207022121614070223211840692232161607022521615070224216170702262205907122721619070228216200702292162107023021620070229216220702312119106923021623070232216240702332163007023921201069240216310702402120206924121632070241216330702422163407024300000000000216350702440000000000021636070245000000000002163707034200000000000216390703442164007034521641070346216420703472164307034800000000000216440703490000000000021645070350000000000002164907035421648070353216500703552165107035621653070358000000000002165407037600000000000216560703782165507037721657070379000000000002165807038000000000000216590703810000000000021660070382000000000002166107038300000000000216620703840000000000021663070385000000000002166407038600000000000216650703870000000000021666070390000000000002166907039500000000000216700703960000000000021672070399000000000002168607041322135071413216870704142213507141321688070415216890704162169007041721691070418)))
 (.node 2 (.node 1 (.leaf 2169207041921250069418216930704202125206942021700070427217010704282170207042921703070430217050704322170407043121706070433217070704342171307044021714070441217170704442216607144421721070448217220704492172707045421726070453217280704552172907045621731070458217300704572173207045922181071459217330704602218207146021735070462217340704612173707046421736070463217380704652129606946421741070468217400704672174207046921302069470217430704702130306947121748070475217470704742175007047721749070476217510704782131106947921752070479222010714792175307048021754070481217560704832220507148321757070484217580704852175907048622208071486217600704872176107048821764070491217630704902176507049221324069492217660704932132506949321767070494217680704952177207049921331069499217730705002133206950021774070501213320695002177507050221776070503217770705042177807050521782070509217810705082178507051221784070511217950705222179407052121796070523213560695242180107052821800070527218020705292136106952921803070530218040705312180607053321805070532218080705352180707053421810070537218090705362181107053821812070539218130705402181407054121816070543213750695432181707054421375069543218190705462181807054521822070549218210705482182407055121823070550218260705532138606955421828070555213870695552183007055721831070558218320705592183107055821833070560213920695602183507056221836070563218380705652183907056621840070567213990695672184107056821842070569)
 (.leaf 2184507057221844070571218460705732140506957321849070576218480705752185007057721851070578218530705802185207057921856070583218570705842185807058522306071584218600705872185907058621861070588218620705892186507059221864070591218670705942186607059321868070595214260695942186907059621429069597218700705972187107059821876070603218770706042187907060622328071606218800706072232907160721881070608214410696092188207060921883070610218960706232234507162321897070624223470716252189807062522347071625219050706320000000000021906070633000000000002190707063400000000000219080706350000000000021909070636000000000002191307067421912070673219140706752191507067621917070678214740696782191807067921919070680219200706810000000000021921070682000000000002192207068300000000000219230706840000000000021924070692000000000002192507069300000000000219260706940000000000021927070695000000000002192807102800000000000219290710290000000000021930071030000000000002193107109300000000000219320710940000000000021933071095000000000002193407109600000000000219350710980000000000021936071099000000000002194107110421940071103219440711072194507110821947071110219460711092195507111821954071117219560711192151507012021957071120215150701202195807112121959071122219600711232151907012421961071124219620711252196907113221968071131219700711332197107113421973071136219740711372198307114621541070146219840711472198507114821986071149215440701492198707115021988071151))
 (.node 1 (.leaf 2198907115221990071153219910711542243907215421992071155224400721552199407115721995071158219970711602244407215921998071161219990711622200107116421559070164220020711652200307116622005071168220060711692200807117122007071170220090711722156807017322010071173215680701732202007118322469072184220210711842202207118522023071186220220711852202407118721582070187220260711892247507219022027071190215860701912202807119121586070191220290711922158807019322030071193220310711942203707120522036071204220380712062203907120722044071212220430712112204907121722048071216220500712182249707221722051071219220520712202205607122422055071223220570712252205807122622065071233220640712322206607123422067071235220700712382251807223822071071239225200722402207207124022073071241220750712430000000000022076071244000000000002207707124500000000000220780713390000000000022079071340000000000002208107134200000000000220820713430000000000022084071345220830713442208507134621642070347220860713472164207034722087071348000000000002208807134900000000000220890713500000000000022090071351000000000002209107135200000000000220920713530000000000022093071354000000000002209407135522095071356220960713572254207235722097071358225430723582209807135900000000000221000713782209907137722101071379221020713802210307138100000000000221050713830000000000022107071385000000000002210807138600000000000221090713870000000000022110071388000000000002211107138900000000000)
 (.leaf 2211507139322114071392221160713942166707039322117071395216680703942211807139621671070397221220714002212107139922125071403216770704042212607140421677070404221270714052167707040422128071406216790704062212907140721681070408221320714102213107140922133071411225830724112213407141221685070412221370714152213607141422140071418221390714172214107141922591072419221430714212259307242122144071422225930724212214507142322595072423221460714242259607242422147071425225960724242214807142622599072427221490714272259907242722150071428226000724282215107142921703070430221520714302260207243022156071434221570714352215907143721710070437221600714382216107143922164071442221630714412216807144622167071445221700714482216907144722171071449217220704492217207145021723070450221770714552217807145622183071461226320724602218607146422185071463221870714652173907046622189071467221880714662219007146821740070467221910714692219207147022198071476221970714752219907147722648072476222000714782265007247822212071490217620704892221307149122214071492222250715032177607050322226071504226760725042222707150522677072505222280715060000000000022236071514222350715132223907151722238071516222430715212224207152022244071522222450715232224707152522697072525222480715262269807252622249071527226990725272225107152922250071528222520715302270207253022253071531222540715322225507153322256071534222580715362225707153522259071537227090725372226007153822261071539))))))
 (.node 16 (.node 8 (.node 4 (.node 2 (.node 1 (.leaf 2226207154021814070541222630715412226407154222267071545227160725442227207155022271071549222730715512182507055222274071552218250705522227507155321827070554222760715542182707055422277071555218290705562227807155621829070556222800715582183107055822281071559222820715602228407156222285071563222870715652228807156622289071567222880715662229007156821842070569222930715712184407057122295071573222940715722229607157421847070574222970715752274607257422298071576222990715772230107157922300071578223040715822230307158122305071583223060715842230707158522306071584223080715862230907158722315071593218660705932231607159422765072593223170715952231807159622320071598223210715992232207160021873070600223230716012232407160222325071603227760726042232607160422776072604223270716052277707260522330071608223290716072233107160922332071610223330716112278407261222334071612227840726122233807161621889070616223400716182233907161722343071621223420716202234407162222345071623223510716292190207062922352071630219040706312235407163221904070631223550716330000000000022356071634000000000002235707163500000000000223580716370000000000022359071638000000000002236007163900000000000223610716400000000000022362071644000000000002236307164500000000000223670716742236607167322368071675223690716762237007167722371071678223720716790000000000022373071680000000000002237507168200000000000223760720250000000000022377072026000000000002237807202700000000000)
 (.leaf 2237907209300000000000223800720940000000000022381072095000000000002238207209600000000000223830720980000000000022384072099000000000002238507210000000000000223860721010000000000022388072103223870721022238907210421942071105223900721052239107210622397072112223980721132240407211922403072118224050721202240607212122407072122219590711222240807212322409072124224110721262241207212722414072129224150721302241607213122417072132224200721352242107213622426072141228740731412242707214221979071142224280721432198007114322429072144219810711442243107214621982071145224320721472198507114822433072148228810731482243407214922435072150224450721602244407215922446072161224470721622244807216322449072164224510721662245007216522452072167224530721682245807217322457072172224590721742201107117422461072176224600721752247107218622470072185224720721872202507118822477072192224780721932249807221822497072217225010722212205307122122504072224225030722232250507222522506072226225080722282250907222922514072234225130722332251507223522516072236225230722432252207224222524072244225250722452252607224600000000000225280723220000000000022529072339000000000002253007234000000000000225310723412298207334122532072342220800713412253307234322984073343225350723452253407234422536072346225370723472254007235522539072354225410723562254207235722544072359000000000002254507236000000000000225460723740000000000022547072375000000000002255207238022551072379))
 (.node 1 (.leaf 2255307238122104071382225540723822210407138222555072383221060713842255607238422106071384225570723852255807238622562072390221120713902256307239122113071391225640723922211307139122565072393230240733932256607239422567072395225680723962302707339622570072398221200713982257107239923030073399225720724002212107139922573072401221230714012257407240222575072403225760724042303507340422578072406225770724052258107240922580072408225850724132258407241222586072414230450734142258707241522588072416225900724182258907241722597072425230560734252259807242623056073425226010724292260207243022606072434226050724332260707243522157071435226080724362260907243722610072438226110724392261307244123072073441226140724422216307144122617072445221670714452261807244622619072447226210724492262007244822625072453226240724522262607245422176071454226270724552217807145622628072456230880734572263807246622637072465226390724672218807146622642072470221930714712264307247122644072472226450724732264407247222646072474221950714732264907247723109073478226510724792311007347922652072480226530724812265707248522658072486226600724882266107248922662072490226610724892266307249122664072492226670724952221707149522668072496222190714972267007249822220071498226720725002222207150022674072502222240715022267807250622677072505226790725072222907150722680072508000000000002269307252122692072520227030725312270207253022704072532227050725332271007253822709072537)
 (.leaf 2271107253923169073538227120725402271307254122725072553227240725522272607255422727072555227300725582273107255922732072560222830715612273307256122734072562227370725652273807256622740072568227390725672274107256922291071569227420725702229207157022747072575232060735752274907257722748072576227530725812275207258022754072582232140735832275607258422755072583227570725852275807258622762072590227610725892276407259222763072591227660725942276507259322767072595232250735942276807259622769072597227700725982276907259722771072599227720726002278007260823239073608227810726092278207261022787072615227860726142278807261623247073616227890726172324807361722790072618232480736172279107261923251073620227930726212279207262022794072622232520736212279507262322346071624227960726242234607162422798072626223480716262280007262822799072627228010726292235007162822802072630223530716312280307263122804072632228070726350000000000022809072637000000000002281007263822811072639228120726400000000000022813072641000000000002281407264500000000000228180726742281707267322819072675232810736752282007267623282073676228210726772282207267822824073022000000000002282507302300000000000228260730240000000000022827073025000000000002282807302600000000000228290730940000000000022830073095000000000002283107309600000000000228320730990000000000022833073100000000000002283407310100000000000228350731020000000000022837073104228360731032283807310523294074105)))
 (.node 2 (.node 1 (.leaf 2283907310622840073107228430731102239507211022848073115228470731142284907311622400072115228500731172240107211622851073118233060741172285407312122406072121228550731222285607312322858073125228590731262286007312722412072127228610731282286207312922866073133233220741332286707313422419072134228680731352286907313622876073143233320741432287707314422430072145228780731452287907314622888073155224410721562288907315622890073157228910731582289207315922900073167228990731662290107316822454072169229020731692290307317022910073177224630721782291107317822463072178229120731792246407217922913073180229140731812291507318223371074182229160731832337207418322917073184229180731852291907318622920073187229240731912292507319222929073196000000000002293007319700000000000229310732000000000000022936073205229350732042294007320922939073208229460732152294507321422947073216224960722162294807321722497072217229500732192294907321822951073220224990722192295207322122502072222229560732252295507322422957073226229580732272295907322822960073229229620732312296307323222972073241225210722412297307324222974073243229760732452252507224522977073246225270722472297807324722979073248229800733390000000000022981073340000000000002298307334222982073341229860733452344207434522987073346229880733472298907335000000000000229900733510000000000022991073352000000000002299407335522993073354229950733562345207435722996073357229970733582299807335923455074360)
 (.leaf 2299907336000000000000230000733690000000000023001073370000000000002300207337100000000000230030733720000000000023004073373000000000002300607337523005073374230090733782300807337723010073379225510723792301607338523015073384230170733862347507438623018073387225600723882302107339023020073389230280733972302707339623031073400234890744002303207340123033073402230370734062303607340523038073407225790724072304207341122582072410230430734122350007441123046073415230470734162305507342423054073423230570734262305607342523058073427235150744262306007342923059073428230610734302260207243023062073431226040724322306507343423064073433230660734352306707343623070073439235280744392307107344023529074440230730734422307407344323076073445226160724442307707344623534074445230790734482307807344723080073449230810734502308407345323083073452230850734542308607345523095073464230940734632309607346523553074464230980734672309707346623100073469230990734682310107347023102073471231040734732310307347223107073476235660744772310807347723566074477231110734802311207348123117073486231180734872311907348823120073489231220734910000000000023123073492226650724932312707349623126073495231280734972266907249723130073499226710724992313107350022673072501231320735012267307250123133073502226750725032313407350322675072503231390735082313807350723140073509000000000002314907351823608074519231540735232315307352223155073524231560735252316007352923159073528))
 (.node 1 (.leaf 2316107353023162073531231660735352316507353423168073537231670735362317007353923171073540231790735482317807354723180073549231810735502318207355123640074551231830735522364007455123184073553236410745522318507355423642074553231860735552364307455423187073556227280725562318807355722729072557231890735582319007355923194073563231950735642319607356523197073566231990735682319807356723200073569236580745692320107357023658074569232020735712320307357223204073573236620745732320507357423663074574232120735812321107358023213073582232140735832321907358822760072588232200735892322107359023226073595232270735962324307361223242073611232490736182370707461823250073619232510736202325307362223252073621232540736232371207462323255073624227970726252325607362522797072625232600736292325907362823261073630232620736312326507363422806072634232660736352326707363623268073637232690736382327307364200000000000232740736430000000000023275073644000000000002327607364500000000000232770736460000000000023279073673232780736722328307367700000000000232840736780000000000023285073679000000000002328607402000000000000232870740950000000000023288074096000000000002328907409700000000000232900741010000000000023291074102000000000002329207410300000000000232930741042375407510423298074109232970741082329907411022844073111233000741112330107411223302074113233030741142330707411823306074117233080741192376907511923309074120228530731202331007412122853073120)
 (.leaf 2331107412223773075123233120741232331307412423314074125233150741262331907413022863073130233200741312378207513223321074132233220741332332507413623326074137233330741442379407514423334074145237950751452335007416123349074160233510741622335207416323361074172229050731722336307417422907073174233670741782336607417723374074185229180731852337507418622920073187233760741872337707418823379074190233800741912338507419600000000000233860741970000000000023387074198000000000002339107420523390074204233920742062293707320623397074211233960742102340007421423399074213234010742152386107521523403074217234020742162340507421923404074218234070742212340607422023408074222238680752222341007422423409074223234110742252387207522623412074226238720752262341407422823413074227234150742292341607423023418074232238780752322341907423322964073233234200742342342107423523422074236229680732372342407423823423074237234250742392297107324023426074240234270742412343007424422975073244234310742452343207424623435074288000000000002343607428900000000000234370743400000000000023441074344239000753442344307434623903075347234440743470000000000023445074350000000000002344607435100000000000234470743522299207335323448074353234490743542345007435523451074356234530743582345407435923456074361000000000002345707436200000000000234580743630000000000023459074369000000000002346207437323461074372234640743752346307437423466074377230080733772347007438123012073381))))
 (.node 4 (.node 2 (.node 1 (.leaf 2347107438223013073382234740743852347307438423476074387234750743862348307439423482074393234850743962348407439523494074405234930744042349707440823496074407234980744092396107541023499074410239610754102350107441223502074413235030744142396607541523504074415239660754152350507441623506074417235140744252351507442623518074429235170744282351907443023520074431235210744322306307343223522074433230640734332352307443423986075435235240744352398707543623530074441235290744402353207444323074073443235330744442307507344423535074446235340744452353807444923537074448235410744522354007445123542074453230830734522354307445424005075454235440744552400507545423547074458235460744572355007446123549074460235570744682355607446723558074469240210754702355907447024021075470235600744712402107547023563074474240240754732356407447524026075475235650744762402607547523568074479235670744782356907448023570074481235720744832357307448423577074488235780744892357907449023121073490235810744922358007449123585074496235840744952358607449724048075497235870744982312907349823588074499240500754992358907450024051075500235900745012359107450223593074504231360735052359407450523595074506235980745092359707450823599074510000000000002360007451100000000000236040745152360307451423605074516000000000002360607451700000000000236070745182360807451923610074521236090745202361107452223153073522236120745232407307552223613074524231560735252361707452823616074527)
 (.leaf 2361807452924079075528236190745302408007552923624074535236230745342362607453723625074536236300745412363107454223634074545236330745442363507454623176073545236360745472409707554623637074548236380745492364607455723645074556236470745582364807455923657074568236560745672365907457023658074569236600745712412307557223661074572241230755722366807457923667074578236690745802413007557923670074581241320755812367107458223672074583236740745852367507458623676074587232180735872367707458824138075587236780745892367907459023682074593241440755932368307459424144075593236840745952322707359623685074596241470755962369107460223233073602236920746032369307460423696074607236970746082369807460923699074610237020746132370307461423705074616237060746172370807461923707074618237100746212370907462023715074626237140746252371607462723257073626237170746282325807362723718074629237190746302372207463323721074632237300746412373107464223733074644237320746432373407464523735074646237390746752373807467423740074676237410746772374207470500000000000237430747060000000000023744074708000000000002374507501000000000000237460750110000000000023747075012000000000002374807501300000000000237490750960000000000023750075097000000000002375107509800000000000237520751020000000000023753075103000000000002375907510923758075108237600751102376107511123764075114237650751152376607511623765075115237670751172330507411623768075118233060741172377007512024227076119))
 (.node 1 (.leaf 2377107512124229076121237720751222377307512323774075124233130741242377507512523313074124237760751262377707512723780075130237810751312378507513523786075136237870751372332707413823788075138233270741382379107514123792075142237930751432379407514423798075148233380741492379907514923339074150238000751502333907415023801075151238020751522380307515324262076154238040751542426207615423805075155238060751562380907515923810075160238110751612426907616123812075162238130751632382207517223360074171238230751732336207417323824075174238250751752382607517623365074176238270751772382807517823829075179238300751802383207518223833075183238380751882337707418823839075189242980761902384007519023378074189238630752172386207521623864075218243240762172386507521924326076219238670752212432807622123869075223243290762222387007522424331076224238710752252433207622523873075227243340762272387407522823413074227238750752292433607622923876075230234160742302387907523323880075234238860752402434607623923888075242238870752412388907524323890075244238910752452389207524623895075339000000000002389707534123896075340238980753422389907534323904075349000000000002390507535000000000000239070753522390607535123908075353239090753542391207535723911075356239130753582391407535923916075361234550743602391707536223918075363239240753732392307537223927075376234650743762393107538023469074380239330753822393207538123941075390239400753892394207539124400076390)
 (.leaf 2394307539224401076391239490753982395007539923955075404239540754032396007540923959075408239700754192442907641923974075423244330764232397607542523975075424239800754292397907542823982075431239810754302398307543223520074431239840754332398507543423990075439239890754382399107544023528074439239920754412445107644123993075442235310744422399407544323531074442240000754492399907544824002075451240010754502400307545224463076453240080754572400707545624013075462240120754612401507546424014075463240160754652355407446524019075468240180754672402007546924480076470240230754722402407547324025075474244840764742402707547624486076476240300754792448907647924031075480240320754812403507548424036075485240380754872357607448724039075488240400754892404107549023580074491240420754912358007449124046075495240450754942404707549624506076496240490754982450907649924052075501245100765002405307550223592074503240540755032405507550424058075507235970745082405907550823597074508240610755102406207551124063075512000000000002406807551724067075516240690755182360807451924071075520236090745202407207552124073075522240740755232407307552224084075533236220745332408707553624086075535240910755402362907454024092075541240930755422409407554323632074543240980755472409907554824101075550241000755492410207555123639074550241080755572410707555624109075558236480745592411207556123650074561241130755622365107456224114075563236520745632411507556424116075565)))
 (.node 2 (.node 1 (.leaf 2412007556924119075568241210755702458007657024122075571245810765712412707557624126075575241340755832413307558224135075584245930765832413607558524594076584241370755862367507458624139075588245970765872414007558923679074590241410755902367907459024142075591241430755922415307560224152075601241560756052369507460624157075606241580756072416407561324623076613241650756142416607561524168075617246270766172417407562324173075622241750756242463407662424179075628241780756272418007562924181075630241850756342464307663324186075635237250746362418707563624188075637241920756412419107564024193075642000000000002419507564424194075643241960756452419707564624200075674241990756732420107567524202075676242030757060000000000024204075707000000000002420507571500000000000242060760040000000000024207076005000000000002420807600600000000000242090760970000000000024210076098000000000002421107610300000000000242120761040000000000024213076105000000000002421507610724214076106242170761092421607610824218076110246700771102422407611624223076115242250761172422607611824231076123242300761222423307612524232076124242340761262468507712524235076127237770751272423607612824237076129242390761312378107513124240076132242410761332424307613500000000000242440761362469607713624245076137242460761382424807614023790075140242490761412425007614224255076147000000000002425607614824257076149242580761502425907615124261076153247140771542426507615723807075157)
 (.leaf 2426607615824267076159242700761622472207716224272076164238140751642427707616923819075169242780761702381907516924282076174242810761732428307617524284076176242850761772428607617824292076184238350751852429307618524294076186242970761892474907718924299076191243000761922430407619623847075197243050761972384707519724306076198000000000002430707620000000000000243080762010000000000024314076207243130762062431607620924315076208243170762102477007721024318076211247710772112431907621224772077212243200762132477307721324321076214247740772142432307621624322076215243250762182432407621724327076220243280762212433307622624787077227243350762282478807722824337076230238770752312433807623124339076232243400762332434107623424342076235243430762362434407623724798077238243450762382479807723824347076240248000772402435007624324803077243243520762452435107624424353076246000000000002435407624700000000000243550762480000000000024356076249000000000002435707633900000000000243580763400000000000024359076341000000000002436007634200000000000243610763430000000000024363076349000000000002436407635000000000000243650763510000000000024366076352248110773522436707635324368076354243700763562437107635724373076359243740763602437607636200000000000243850763752438407637424387076377243860763762439007638024389076379243910763812439207638224404076394244030763932440807639823948075397244090763992395107540024415076405244140764042441607640623957075406))
 (.node 1 (.leaf 2441807640823959075408244250764152396607541524427076417244280764182443007642024879077421244320764222488007742224434076424244330764232443707642724436076426244380764282488507742724444076434239850754342444507643523986075435244460764362398707543624447076437244480764382444907643924448076438244520764422490007744224453076443249010774432445707644724456076446244580764482490707744924461076451244620764522447107646124470076460244730764632447207646224474076464249220774642447507646524923077465244900764802493707747924491076481249400774822449207648224493076483244940764842494207748424495076485249430774852449607648624037075486244970764872449807648824500076490240400754892450107649124502076492245030764932450207649224511076501245100765002451207650224513076503245160765062451707650724520076510245210765112452307651300000000000245280765182452707651724529076519240700755192453107652124530076520245400765302408107553024542076532240830755322454607653624088075537245470765372408807553724548076538245490765392455007654024551076541245520765422455307654324561076551245600765502456207655225010077552245630765532501107755324565076555245640765542456707655724566076556245680765582501507755724569076559250170775592457007656024111075560245710765612457207656224577076567245780765682458207657224581076571245830765732458407657424588076578245870765772459107658124590076580246080765982415007559924609076599241510756002461407660424613076603)
 (.leaf 2461507660524616076606246180766082461907660924620076610246210766112462407661425071077613246250766152462607661624632076622246310766212463307662324634076624246350766252508307762524639076629246380766282464007663024641076631246440766342509207763424645076635250930776352464607663624647076637246510766410000000000024652076642000000000002465407664424653076643246580766742465707667324659076675000000000002466007667600000000000246610767170000000000024662076719000000000002466307710300000000000246640771040000000000024666077106246650771052466707710725109078106246690771092511307811024671077111242190761112467207711224220076112246730771132422107611324674077114246750771152467607711624675077115246780771182467707711724681077121246800771202468207712225124078121246840771242512707812424687077127251310781282468807712824689077129246920771322469307713324697077137251400781372469807713825141078138246990771392514207813924700077140251430781402470107714125145078142247020771422514607814324703077143247040771442470507714524253076145247070771472515007814724708077148247090771492471007715025154078151247110771512515507815224712077152251560781532471307715324714077154247180771582471907715924721077161242690761612472307716324722077162247240771642472507716524731077171247300771702473207717225175078172247330771732517607817324734077174251760781732473507717524736077176247380771782428707617924743077183247440771842474807718824296076188)))))
 (.node 8 (.node 4 (.node 2 (.node 1 (.leaf 2475407719424303076195247590771990000000000024761077201247600772002477607721625220078217247780772182522107821824779077219247800772202478407722425227078224247910772312523407823124794077234247950772352479707723725239078236247990772392480007724024801077241248020772422480507724500000000000248060772460000000000024807077247000000000002480807724800000000000248090773400000000000024813077354248120773532481407735524368076354248150773562525607835624816077357252570783572481707735824818077359248190773602482007736124821077362000000000002482207736400000000000248230773650000000000024824077366000000000002482807737024827077369248340773762483307737524835077377243880763782483907738124840077382248460773882439707638724847077389243980763882484907739124400076390248530773952485207739424854077396244060763962485607739824855077397248580774002441007640024859077401244120764022486007740224861077403248620774042486107740324866077408244190764092486807741024420076410248720774142442407641424873077415244260764162487407741624875077417248900774322488907743124892077434248910774332489307743525334078435248940774362489507743724897077439253380784392489907744124898077440249030774452534407844524904077446249050774472490607744825347078448249100774522490907745124912077454249110774532491307745525353078454249140774562535407845524916077458249150774572491707745924468076458249180774602491907746124924077466249230774652492607746824925077467)
 (.leaf 2492907747124481076471249380774802493707747924939077481249400774822494407748624943077485249450774872494607748824949077491249480774902495507749724954077496249560774982495707749924962077504245140765042496307750524515076505249640775062496507750724967077509245190765092497707751924976077518249790775212497807752024982077524249810775232498307752524535076525249840775262453507652524987077529245380765282498807753024539076529249890775312454107653124991077533245430765332499207753424544076534249950775372499407753624996077538249970775392500107754325000077542250020775442455407654425003077545245550765452500407754625005077547250070775492455807654825008077550245600765502501807756025459078560250190775612545907856025020077562250210775632502207756425023077565250240775662502307756525025077567250260775682502807757025029077571250300775722503107757325034077576250330775752503507757725476078577250400775822503907758125041077583250420775842504507758725486078587250460775882504707758925052077594246040765942505307759524605076595250540775962460607659625055077597250560775982505907760125058077600250600776022461307660325062077604250610776032506307760525505078606250640776062550607860725065077607250660776082506707760925068077610250700776122551007861125072077614255130786142507307761525514078615250760776182507507761725079077621250780776202508007762225522078623250810776232508207762425084077626250830776252508507762724636076626))
 (.node 1 (.leaf 2508607762825526078627250890776312464107663125097077639250980776402509907764100000000000251000776440000000000025102077646000000000002510307767300000000000251040776740000000000025105077675000000000002510607810300000000000251070781040000000000025110078107000000000002511207810900000000000251140781112555507911025115078112255580791132511607811325117078114251260781232556707912225128078125255710791262512907812624686077126251320781292469007713025133078130251340781312513807813525139078136251610781582560207915725162078159256050791602516307816024720077160251640781612560707916225167078164251660781632516807816525169078166251710781682517007816725172078169247280771682517307817024729077169251740781712561507917025177078174251760781732517807817525620079175251790781762562007917525182078179247390771792519407819124751077191251950781922519607819325197078194247550771952519807819524756077196252050782022476207720225214078211252130782102521607821324773077213252170782142565907921425218078215256600792152521907821625661079216252220782192566407921925223078220252240782212522607822325667079222252280782252567007922525231078228256730792282523207822925674079229252350782322567707923225237078234256790792342524007823725682079237252420782392568307923825244078241000000000002524507824200000000000252460782450000000000025247078246000000000002524807824700000000000252490782480000000000025250078350000000000002525107835125694079351)
 (.leaf 2525207835224810077351252530783530000000000025254078354000000000002525507835500000000000252580783580000000000025259078359000000000002526007836000000000000252610783610000000000025262078363000000000002526307836400000000000252640783652526507836625268078369248260773682527107837224830077372252720783732483107737325274078375252730783742527507837625710079376252760783772571007937625277078378248360773782527807837924837077379252790783802483807738025280078381248400773822528107838225282078383252830783842484207738425284078385248430773852528607838725285078386252880783892528707838825289078390248480773902529007839125725079391252910783922485107739325292078393248510773932529307839424852077394252950783962529407839525296078397248550773972529707839824855077397252980783992485707739925299078400257350794012530007840125736079402253010784022530207840325304078405253050784062530607840725307078408253080784092486707740925310078411253110784122531507841624875077417253160784172531707841825322078423253210784222532307842425759079425253240784252575907942525326078427253250784262532707842825762079428253290784302576407943025331078432253300784312533207843325767079433253330784342576707943325335078436253360784372534007844125775079441253410784422577507944125343078444253420784432534607844725345078446253490784502490807745025351078452253500784512535607845724915077457253570784582579207945825358078459257930794592535907846025794079460)))
 (.node 2 (.node 1 (.leaf 2536007846125795079461253640784652536307846425366078467253650784662537307847425372078473253750784762537407847525376078477253770784782537807847925377078478253790784802538007848125382078483249410774832538307848425819079485253840784852581907948525385078486258200794862538607848725821079487253900784912538907849025391078492258250794912539207849324951077493253930784942495207749425395078496253940784952539607849725831079497254020785032540107850225405078506254040785052540607850724966077508254090785102540807850925410078511254110785122541407851500000000000254190785202541807851925420078521000000000002542107852224980077522254220785232498107752325426078527254250785262542707852824986077528254280785292498607752825429078530254300785312543307853425432078533254370785382543607853725438078539254390785402544007854124999077541254410785422500007754225442078543258780795442544307854425879079545254440785452587907954525445078546258790795452544907855025009077551254500785512500907755125451078552250100775522545207855325011077553254550785562589007955625456078557254570785582545807855925017077559254600785612545907856025463078564254640785652546507856625466078567254670785682590207956825477078578254760785772548307858425042077584254840785852504407758625485078586254860785872549107859225490078591254930785942549207859325494078595259290795952549507859625496078597254980785992593207959825500078601254990786002550307860425502078603)
 (.leaf 2550407860525505078606255080786092594407961025509078610259440796102551107861225510078611255120786132551307861425519078620255180786192552007862125955079621255250786262552407862525528078629250870776292552907863025530078631255310786322509007763225532078633255330786342553607863725537078638255390786402553807863925540078641000000000002554107864400000000000255420786452510107764525543078646255440786472554507867100000000000255460786720000000000025547078673000000000002554807910300000000000255490791040000000000025550079105000000000002555207910725551079106255540791090000000000025556079111259880801102555707911225991080113255600791152556107911625565079120255640791192556607912125998080120255680791232600108012325570079125260030801252557207912725130078127255740791292557307912825575079130260080801302557607913125135078132255770791322557807913325582079137255830791382558407913925585079140255900791452559107914625597079152255960791512559807915326031080153255990791542560007915525603079158260360801582560407915926037080159256060791612560707916225609079164251660781632561007916525611079166256250791802518307818025626079181251840781812562707918226060080182256280791832606108018325629079184260610801832563007918525631079186256370791922563607919125643079198252010781982564507920025203078200256460792012520407820125648079203252060782032565107920625209078206256520792072608408020625653079208260850802072565407920925211078208))
 (.node 1 (.leaf 2565507921026087080209256560792112608908021125657079212252150782122565807921326091080213256650792202609708021925668079223261010802232568407923900000000000256870792452568607924425688079246000000000002568907924700000000000256900792480000000000025691079348000000000002569207934900000000000256930793500000000000025695079352000000000002569807936425697079363256990793652570007936625701079367252650783662570207936825703079369257040793702526907837025705079371252700783712570607937226133080372257070793732613408037325712079378257110793772571407938025713079379257150793812614208038125717079383252820783832571807938425719079385257260793922572507939125727079393257280793942572907939525730079396257310793972573007939625737079403253020784032574007940625739079405257410794072574207940825743079409257440794102574507941125309078410257460794122574707941325748079414253140784152575007941625751079417257530794192575407942025756079422261830804222575707942326184080423257580794242618608042525761079427261870804262576507943126191080430257660794322619308043225768079434257670794332577007943626196080435257710794372577207943825776079442257750794412577907944526205080444257840794502578307944925788079454257870794532579707946326224080463257990794652579807946425801079467258000794662580207946826228080467258030794692623008046925807079473253720784732580907947525808079474258100794762581107947725813079479258140794802581507948125814079480)
 (.leaf 2581607948225381078482258170794832581807948425823079489258220794882582707949325826079492258380795042583707950325842079508254070785082584307950925408078509258450795112584407951025846079512258470795132584807951425413078514258510795170000000000025861079527258600795262586207952826289080528258630795292586407953025872079538258710795372587307953926301080540258740795402587507954125886079552258850795512588707955325888079554258920795582589107955725893079559258940795602589507956125461078562258960795622589707956325899079565263260805652590307956925469078570259040795702633108057025909079575259080795742591307957925912079578259140795802591507958125917079583259160795822591807958426344080583259190795852592007958625923079589259240795902592807959425929079595259370796032593607960225938079604259390796052594107960726369080608259450796112594407961025946079612263720806112594707961325948079614259510796172595007961625953079619259520796182595607962226382080621259600796262595907962525961079627263870806262596207962826388080627259650796312596407963025966079632259670796332597207963825973079639259740796402597307963925975079641000000000002597607964400000000000259770796452640308064525978079646259790796472598007967000000000000259810796710000000000025982079672000000000002598308010500000000000259840801060000000000025985080107000000000002598608010825553079108259870801090000000000025989080111000000000002599008011200000000000))))
 (.node 4 (.node 2 (.node 1 (.leaf 2599208011426419081114259940801162599508011725996080118264240811192599708011926424081119259990801212642608112126000080122264270811222600208012426429081124260050801272600608012826007080129260060801282600908013126010080132260170801392558507914026018080140255860791412601908014125587079142260200801422558807914326021080143260220801442602508014725592079147260270801492602608014826028080150255940791492602908015126030080152260340801562646108115626044080166260430801652604508016725611079166260470801692561407916926049080171264750811702605008017226476081171260520801742605108017326053080175260540801762605508017726054080176260580801802605908018126063080185260620801842606408018625632079187260650801872563207918726066080188260670801892607008019226071080193260720801942563907919426076080198256420791972607708019925644079199260780802002607908020126081080203260800802022609008021226091080213260980802202652508122026099080221261000802222610208022426529081224261040802260000000000026105080231000000000002610608023200000000000261070802330000000000026108080234000000000002610908024300000000000261100802440000000000026111080245261120802462611308024700000000000261150802490000000000026116080250000000000002611708025100000000000261180803540000000000026119080356000000000002612008035700000000000261220803610000000000026123080362000000000002612408036325696079362261260803652612508036426129080368261280803672613108037026130080369)
 (.leaf 2613208037126133080372261350803742613608037526138080377261370803762614308038226142080381261440803832571607938226145080384265820813842614608038526147080386261520803912615108039026153080392265910813932615408039326155080394261560803952615708039626158080397257320793982615908039825732079398261600803992573307939926161080400257350794012616308040225736079402261640804032573807940426167080406261660804052616808040726606081408261690804082574207940826170080409257420794082617108041026608081410261720804112660908141126173080412257470794132617408041326175080414261770804162661408141626178080417257510794172617908041826180080419261850804242662208142426189080428266250814272619208043126193080432261950804342619408043326197080436266340814362619808043726635081437261990804382663508143726200080439262010804402620808044726645081447262120804512621308045226214080453266510814532621508045426216080455262290804682622808046726231080470266680814702623208047125805079471262330804722580607947226234080473258060794722623608047526235080474262370804762623808047726239080478266770814792624008047926241080480262420804812624108048026243080482266800814822624408048326245080484262470804862668308148526252080491262510804902625408049326253080492262550804942582807949426256080495258300794962625708049626258080497262620805012583507950126266080505262650805042626808050726267080506262730805122627208051126277080516258500795162628108052026282080521))
 (.node 1 (.leaf 2628308052225856079522262840805232585707952326285080524258580795242629308053226292080531262960805352629508053426297080536258700795362629908053826298080537263000805392630108054026303080542258770795432630408054325878079544263050805442587907954526306080545258790795452630708054625879079545263100805492630908054826311080550258830795492631508055426314080553263160805552675308155526317080556258910795572632408056326762081564263250805642632608056526328080567263270805662632908056826330080569263350805742633408057326337080576263360805752633808057726339080578263400805792633908057826341080580263420805812634308058226781081583263450805842634608058526347080586267840815862634808058725922079588263540805932635308059226355080594267930815952635908059825932079598263610806002636008059926362080601267980816002636508060426364080603263660806052636708060626373080612263720806112637408061326375080614263790806182681608161826381080620263800806192638308062226382080621263840806232595707962326386080625263850806242638908062826825081627263910806302639208063126395080634263940806332639608063525969079635263970806362597007963626399080638263980806372640108064000000000000264020806440000000000026404080646268410816462640508064726842081647264060806480000000000026407080669000000000002640808067000000000000264090810630000000000026410081064000000000002641108110600000000000264120811070000000000026413081108000000000002641408110926415081110)
 (.leaf 2641608111100000000000264170811120000000000026432081127264310811262643308112826434081129264350811302687008213126436081131260100801322643708113226011080133264420811372644308113826444081139264450811402644608114126880082141264470811422644808114326450081145264510811462645208114726887082148264530811482688808214926454081149260260801482645508115026889082150264560811512645708115226465081160264660811612646808116326469081164264720811672647108116626473081168260460801682647808117326477081172264790811742691208217326481081176264800811752648208117726056080178264830811782605608017826484081179260570801792648508118026919082180264860811812606008018226487081182269220821832648908118426923082184264900811852692408218526491081186269250821862649208118726926082187264930811882692608218726494081189260680801902649508119026068080190265040811992693808219926506081201265050812002650708120226079080201265090812042608208020426511081206265100812052651208120726085080207265140812092651308120826515081210260880802102651608121126517081212265210812162695408221526523081218260970802192652408121926525081220265260812212696108222226530081225000000000002653108122600000000000265320812270000000000026533081228000000000002653408122900000000000265350812300000000000026536081231000000000002653708123200000000000265380812330000000000026539081234000000000002654008123500000000000265410812360000000000026545081246265440812452654608124726114080248)))
 (.node 2 (.node 1 (.leaf 2654708124826114080248265500812510000000000026551081252000000000002655208135400000000000265530813550000000000026554081356000000000002655508135700000000000265560813580000000000026567081369265660813682656908137126570081372265710813732613408037326572081374270070823732657308137526574081376265770813792657608137826578081380270150823812657908138126142080381265800813822701708238326581081383265820813842658308138526582081384265840813862614708038626585081387265860813882658708138926586081388265880813902615108039026589081391270260823922659008139227027082393265930813952702808239426597081399265960813982659808140026162080401265990814012616208040126600081402270360824022660108140327037082403266030814052660208140426604081406266050814072661008141227046082412266110814132704708241326612081414266130814152661508141726614081416266160814182705208241826617081419261800804192661808142026619081421266210814232662208142426630081432266290814312663608143827072082438266370814392707308243926638081440266390814412664008144227075082441266410814432664208144426643081445270780824442664808145026647081449266490814512665008145226652081454266510814532665308145526654081456266550814572665608145826660081462270960824622666608146826665081467266710814732667008147226672081474271080824742667308147527108082474266740814762623808047726675081477266760814782667908148126680081482266810814832711708248326685081487266840814862668908149126688081490)
 (.leaf 2669108149326690081492266920814942712808249426693081495271300824962669408149626695081497266970814992626008049926698081500262610805002669908150127135082501267000815022626308050226701081503262640805032670508150726704081506267070815092670608150826709081511262720805112671008151226272080511267110815132627408051326712081514262750805142671308151526276080515267150815172627808051726716081518262780805172671808152026280080519267220815242672108152326723081525271590825252672408152626287080526267270815292672608152826732081534267310815332673308153526295080534267340815362673508153726737081539271740825402674008154227176082542267410815432674208154426746081548267450815472674708154927183082549267480815502718408255026749081551000000000002675008155226751081553267540815562675308155526755081557267560815582675708155926758081560267670815692720308256926771081573267700815722677308157526772081574267740815762677508157726776081578267770815792677808158026779081581267870815892678808159026790081592263520805912680108160326800081602268020816042680308160526804081606272400826062680608160826807081609268110816132681008161226819081621272540826202682008162226382080621268230816252638508062426828081630268290816312683508163726836081638268390816440000000000026840081645268410816462684308164800000000000268440816690000000000026845082063000000000002684608206400000000000268470821080000000000026848082109000000000002684908211000000000000))
 (.node 1 (.leaf 2685008211126851082112268520821130000000000026854082115268530821142685508211627283083115268560821172728408311626857082118264230811182685808211927287083119268600821212685908212026861082122272900831222686508212627294083126268670821282686608212726869082130268680821292687108213226438081133268720821332643908113426873082134268740821352687508213627305083137268820821432731208314426883082144273130831452688508214627314083146268860821472688708214826890082151268890821502689108215227320083152268920821532689308215426894082155273240831562689608215726897082158268980821592689708215826899082160273290831612690008216127329083161269010821622646708116226905082166269040821652690708216826906082167269080821692647408116926916082177269150821762691808217926917082178269200821812691908218026921082182273500831822692808218926927082188269290821902649608119126930082191264970811922693108219226932082193269360821972650208119726941082202269400822012694308220426510081205269450822062694408220526948082209269470822082695008221127379083211269510822122738008321226952082213269530822142695608221727385083217269570822182738608321826958082219273880832202695908222026960082221269630822240000000000026965082226269640822252696608222727395083227269670822282739608322826968082229269690822302697108224100000000000269720822420000000000026973082243274010832422697408224426544081245269750822452697608224626983082253000000000002698408235000000000000)
 (.leaf 2698508235100000000000269860823520000000000026987082353000000000002698808235400000000000269910823572699008235626992082358265570813592699308235926557081359269940823602655808136026995082361265590813612699608236226560081362269970823632656108136327004082370270030823692700808237427007082373270110823772657608137827013082379270120823782702208238826586081388270230823892658608138827024082390270250823912703008239627460083396270330823992703208239827034082400274640834002703508240127036082402270390824052703808240427040082406266050814072704108240726606081408270420824082660708140927043082409270440824102704908241527479083415270500824162748008341627053082419274830834192705408242027485083421270570824232705608242227058082424274880834242705908242527060082426270660824322706508243127067082433274960834322706808243427069082435270740824402750408344027077082443270760824422708008244627510083446270820824482708108244727085082451275160834522708608245227087082453270880824542751908345527089082455275190834552709008245627520083456270910824572752108345727092082458275220834582709308245927523083459271050824712710408247027106082472275350834712710708247326670081472271100824762710908247527111082477271120824782711908248527549083485271200824862755008348627123082489271220824882712408249026688081490271260824922712508249127127082493266900814922713108249727132082498271330824992756308349927140082506275700835062714208250827141082507)))))))
 (.node 32 (.node 16 (.node 8 (.node 4 (.node 2 (.node 1 (.leaf 2714308250927574083510271440825102670808151027145082511275750835112714608251227576083512271470825132757608351227148082514275790835152714908251527579083515271500825162758008351627151082517267140815162715208251826717081519271540825202715308251927155082521267190815212715608252227157082523271640825302716308252927165082531275940835302716608253227167082533271680825342759808353427169082535275990835352717008253627171082537271720825382673608153827175082541271760825422717808254427179082545271860825522718508255127187082553271880825542719608256227197082563272050825712720608257227209082575272080825742721008257626775081577272110825772764108357727212082578276410835772721308257927643083579272180825842678308158527219082585272200825862722308258927222082588272250825912722608259227235082601272340826002723608260226800081602272370826032766808360427238082604272390826052724208260827672083608272480826142681208161427250082616272490826152725108261726815081617272520826182768308361927253082619272540826202725608262226821081623272570826232725808262427267082633268300816322726908263527268082634272710826372727208263827275082643000000000002727608264400000000000272770826450000000000027278083110000000000002727908311100000000000272800831120000000000027282083114000000000002728508311727284083116272860831182771708411927292083124272910831232729808313027299083131273010831332730008313227302083134273030831352730708313926879082140)
 (.leaf 2730808314026879082140273090831412731008314227323083155277530841552732708315926897082158273280831602775808416027331083163273300831622733208316427333083165273340831662733308316527339083171273380831702734608317827345083177273470831792734808318027356083188277850841872735708318927787084189273580831902778708418927359083191277880841902736008319226932082193273610831932693308219427365083197269350821962736608319826937082198273670831992779808420027368083200269390822002736908320126940082201273700832022780008420227372083204273710832032737308320526944082205273750832072737408320627376083208269470822082737708320926949082210273780832102694908221027381083213278110842132738208321427812084214273830832152695408221527389083221000000000002739008322200000000000273910832232696208222327392083224278220842242739308322527394083226273970832290000000000027398083230000000000002739908323100000000000274000832410000000000027402083243274010832422740308324427835084245274040832452697608224627406083247274050832462740708324826979082249274080832492783908424927409083250269810822512741008325127411083252274120832530000000000027413083254000000000002741408335000000000000274160833522741508335127417083353278470843532741808335427849084355274190833552698908235527421083357274200833562742208335827852084358274230833592742408336027425083361274240833602742608336227855084361274270833632699808236427428083364269980823642743308336927432083368))
 (.node 1 (.leaf 2743408337027003082369274350833712700508237127437083373274360833722743808337427439083375274400833762700908237527441083377270120823782744208337827443083379274460833822744708338327463083399274620833982747208340827471083407274730834092747408341027478083414279080844142748108341727911084417274820834182748308341927487083423274860834222748908342527488083424274910834272792008442627492083428279220844282749308342927494083430274980834342749708343327499083435270690824352750008343627930084436275010834372793108443727502083438270730824392750308343927504083440275070834432750608344227508083444279380844442750908344527939084445275120834482751108344727513083449275140834502751708345300000000000275180834542794908445527524083460279540844602752808346427958084464275300834662752908346527536083472275350834712754008347627539083475275410834772797208447827542083478275430834792754408348027545083481275460834822797608448227554083490275530834892755608349227555083491275570834932755808349427560083496275610834972756508350127564083500275680835042756708350327571083507280020845082757208350828002084508275730835092757408351027577083513275760835122757808351427579083515275810835172801108451727582083518280120845182758408352027583083519275860835222758508352127587083523275880835242759308352927592083528275950835312802508453127597083533280270845332760008353628030084536276010835372717108253727602083538276030835392760408354027173082539)
 (.leaf 2760508354127606083542276120835482761108354727616083552276150835512761708355328047084553276190835552761808355427620083556271900825562762108355727191082557276250835612762408356027627083563271980825642762808356427629083565276300835662720008256627631083567276320835682763308356927632083568276340835702720408257027635083571280640845702763608357227206082572276370835732720708257327638083574280680845742763908357528069084575276400835762764108357727642083578276430835792764508358127646083582276470835832807808458427648083584280780845842764908358527650083586276660836022809608460227667083603276680836042766908360528099084605276710836072810108460727674083610276730836092767508361128104084610276770836132767608361227680083616276790836152768108361728111084617276840836202768508362127686083622281160846222768808362428118084624276890836252769008362627694083630272650826312769508363127265082631276960836322726608263227698083634276970836332769908363527270082636277000836362813008463627701083637272720826382770208363828132084638277030836390000000000027704083640000000000002770508364400000000000277060836450000000000027707083666000000000002770808411000000000000277090841110000000000027710084112281350851112771108411327281083113277120841140000000000027715084117277140841162771608411828143085119277190841212814508512127724084126277230841252772508412728150085126277280841302815508513127730084132277290841312773108413327300083132)))
 (.node 2 (.node 1 (.leaf 2773208413427733084135277460841482731608314827748084150277490841512775008415227320083152277560841582732608315827757084159277580841602776208416428189085165277630841652733308316527767084169277660841682776908417127768084170277700841722734008317227772084174277710841732777308417527342083174277740841762734408317627775084177282020851782777608417828203085179277770841792820408518027778084180277790841812778608418828212085188277890841912821408519027790084192282150851912779108419327362083194277920841942736308319527793084195273630831952779408419627364083196277950841972779608419827804084206282290852052780508420728230085206278060842082823208520827808084210278070842092781308421528239085215278140842162738508321727815084217273850832172781608421827817084219278180842200000000000027819084221282450852212782008422228247085223278210842232824708522327824084226273940832262782708422900000000000278280842300000000000027829084236000000000002783008423700000000000278310842410000000000027832084242000000000002783308424300000000000278340842440000000000027837084247000000000002783808424800000000000278400842500000000000027841084251000000000002784208425200000000000278430842530000000000027844084254000000000002784508435100000000000278460843520000000000027848084354000000000002785108435727850084356278600843662743008336627862084368278610843672786308436927432083368278640843702828308537027866084372278650843712786708437328286085373)
 (.leaf 2786808437427869084375278740843802744408338027876084382274470833832787708438327447083383278790843852744908338527881084387274520833882788208438827883084389278840843902745408339027885084391274550833912788608439227457083393278870843932788808439427893084399283130854002789408440028313085400278970844032746708340327898084404274680834042790108440727900084406279030844092790208440827904084410279050844112790608441228326085413279070844132832708541427909084415283280854152791008441628330085417279120844182833108541827913084419279140844202791508442127916084422279170844232833608542327919084425283380854252792108442727922084428279230844292834208542927925084431279240844302792708443327926084432279280844342749708343327929084435283480854352793208443827933084439279340844402793508444127942084448279410844472794308444927944084450279450844512836508545227946084452279470844532794808445428368085455279590844652837808546527960084466283780854652796408447027963084469279680844742796708447327969084475275390834752797008447627539083475279710844772797208447827974084480279750844812797708448327548083484279780844842754908348527979084485275500834862798008448627550083486279860844922798508449127987084493279880844942799408450027993084499279950845012841408550127997084503279960845022799808450428416085503279990845052841908550628000084506280010845072800308450928421085508280040845102800508451128006084512284250855122800808451428007084513))
 (.node 1 (.leaf 2800908451528428085515280100845162801108451728015084521275850835212801608452227585083521280170845232758808352428018084524280190845252803208453828031084537280330845392845208553928034084540280350845412803708454328038084544280390845452804008454628048084554280470845532804908455528468085555280500845562846808555528051084557276220835582805208455827623083559280530845592762408356028055084561276260835622806208456827632083568280710845772807008457628072084578284910855782807308457928493085580280740845802849408558128075084581284940855812808108458727651083587280820845882765208358828083084589280840845902808708459327658083594280920845982766108359728094084600280930845992809508460127665083601280970846032809808460428100084606281010846072810608461228105084611281080846142810708461328109084615276780836142811008461628528085615281130846192811408462028120084626281210846272812208462827693083629281290846352812808463428131084637281300846362813308464400000000000281340846450000000000028136085112285550861112813708511328138085114281400851162813908511528141085117281420851182814408512028143085119281470851232814608512228149085125281480851242815308512928152085128281560851322815508513128157085133285760861322815808513428159085135281620851382773608413828163085139277380841402816508514128166085142281690851452817008514628172085148277470841492817308514927747084149281770851532817608515228178085154281790851552818308515928182085158)
 (.leaf 2818408516028185085161281880851642860908616528192085168281910851672819308516928194085170281990851752819808517428200085176286190861752820708518327781084183282160851922821508519128217085193286370861932821808519428637086193282190851952822008519628221085197286420861982822208519828643086199282230851992864308619928227085203278000842022822808520428648086204282310852072823008520628234085210286530862092823508521127809084211282360852122823708521328240085216286590862152824108521728660086216282420852180000000000028244085220282430852192824908522528669086225282500852262782508422728251085227282520852282825408523000000000000282550852350000000000028256085236000000000002825708523800000000000282580852390000000000028259085247000000000002826008524800000000000282610852490000000000028262085250000000000002826308525100000000000282640852520000000000028265085253000000000002826608525400000000000282670853530000000000028279085366282780853652828008536727861084367282810853682786108436728282085369282830853702829008537728289085376282910853782787108437728293085380278750843812829708538428298085385283000853872830108538828304085391283050853922830808539527889084395283090853962872908639628310085397283110853982831208539928313085400283140854012873408640128315085402287350864022831808540527899084405283220854092832108540828323085410283240854112832908541628330085417283320854192875208641928333085420287540864212833508542228755086422))))
 (.node 4 (.node 2 (.node 1 (.leaf 2834508543228344085431283460854332876608643328347085434287670864342834908543600000000000283610854482836008544728362085449283630854502836608545328367085454283810854682838008546728386085473283850854722838808547528387085474283890854762880308647528390085477283910854782839208547928391085478283930854802839408548128395085482283960854832839708548428811086483283980854852881308648528399085486288130864852840008548727981084487284020854892798208448828415085502284140855012841708550428832086504284180855052841908550628420085507288360865082842208550928837086509284230855102883808651028427085514284260855132842908551628844086516284300855172843108551828433085520288480865202843408552128849086521284350855222885008652228436085523288510865232843708552428019084525284380855252885308652528439085526280200845262844108552828440085527284420855292802308452928443085530280230845292844408553128025084531284450855322802608453228446085533284470855342845308554028452085539284540855412887008654228455085542288700865422846008554728041084547284620855492846108554828463085550280430845492846708555428466085553284700855572846908555628471085558288860865582847208555928886086558284730855602805408456028474085561280560845622847508556228476085563284770855642805908456528479085566280600845662848508557228484085571284860855732890208657428487085574289030865752848808557528903086575284950855822807608458228496085583289110865832849708558428078084584)
 (.leaf 2849808558528079084585284990855862808008458628500085587285010855882850408559128505085592285100855972850908559628513085600285120855992851408560128515085602285170856042851808560528524085611285230856102852608561328525085612285270856142894108661328529085616289430866152853008561728531085618285320856192894708661928533085620285340856212853808562528119084625285420856292854108562828543085630281240846302854408563128125084631285450856322812508463128546085633281260846322854708563428962086634285480856352854908563628551085638000000000002855208564400000000000285530856450000000000028554085664000000000002855808611428557086113285590861152813808511428560086116289740871152856108611728562086118285660861222898008712128570086126289850871262857308612928572086128285740861302815408513028579086135281600851362858208613828581086137285830861392816408514028584086140281640851402858508614129000087141285860861422858708614328589086145290050871462859008614629005087146285910861472900708714828592086148285930861492859508615128176085152285970861532859808615428605086161286040861602860708616329022087163286110861672819008516628612086168290270871682861308616929029087170286140861702902908717028615086171290300871712862108617728622086178286230861792820308517928626086182282060851822862708618328208085184286280861842820908518528629086185282100851862863108618728212085188286320861882821308518928633086189286340861902863508619128634086190))
 (.node 1 (.leaf 2863608619229051087192286380861942905208719328639086195290540871952864108619729056087197286440862002905808719928647086203286460862022864908620529064087205286500862062865108620728654086210290690872102865508621128656086212286630862192866208621828665086221282450852212866608622228667086223286700862262867108622728673086229286740862302867508623100000000000286760862320000000000028677086233000000000002867808623700000000000286790862380000000000028680086239000000000002868108624700000000000286820862480000000000028683086249000000000002868408625100000000000286850862520000000000028686086253000000000002868708625400000000000286880863550000000000028689086356000000000002869008635729102087357286910863582827008535728692086359282720853592869308636028694086361286960863632827508536228701086368287000863672870408637129115087370287050863722828608537328706086373287070863742870908637628708086375287100863772828908537628711086378287120863792871308638028294085381287140863812871508638228717086384287160863832871808638528719086386287260863932872708639428732086399287330864002873708640428736086403287380864052831708540428739086406287400864072874308641028742086409287440864112915608741128747086414287480864152875008641729163087418287530864202875408642128761086428291720874282876208642929173087429287640864310000000000028765086432000000000002876808643500000000000287690864360000000000028774086441287730864402877808644528357085444)
 (.leaf 2877908644628358085445287810864482878008644728782086449287830864502878708645428788086455288000864722920508747228804086476288050864772880608647829211087478288070864792921208747928808086480292130874802881008648229215087482288150864872881408648628816086488284010854882881808649028817086489288210864932882008649228822086494292270874942882508649728824086496288290865012882808650028833086505288340865062884708651928846086518288520865242925608752328854086526292590875262885608652828855086527288570865292926308753028858086530288590865312886008653229265087532288610865332886208653428865086537288640865362886608653829271087538288670865392927108753828868086540292730875402886908654129273087540288710865432845608554328872086544288730865452887508654728459085546288770865492887608654828878086550292830875502887908655129283087550288830865552888208655428884086556292880875552888508655728886086558288880865602888708655928889086561292940875612889008656228891086563288940865662847808556528895086567293000875672889608656829301087568288970865692848208556928898086570293030875702889908657129304087571289000865722930608757328901086573289020865742890408657629309087576289050865772890608657828908086580289090865812891208658429317087584289130865852931808758528916086588289170865892892308659528508085595289250865972850908559628927086599289260865982892808660028929086601289380866102893708660928939086611289400866122894508661728944086616)))
 (.node 2 (.node 1 (.leaf 2894608661829352087619289490866212853508562228950086622285360856232895108662328537085624289630866352896208663428964086636000000000002896508664300000000000289660866442896708664528968086646000000000002896908666300000000000289700871110000000000028975087116289740871152897608711729378088116289770871182897808711928982087123289810871222898308712428567086123289910871322857608613228992087133285770861332899308713428578086134289940871352899508713628997087138289960871372899808713928999087140290020871432900308714429009087150285940861502901008715129011087152290120871532941608815429013087154290140871552902008716129019087160290210871622942408816229028087169290290871702903108717229434088172290320871732943508817329033087174294360881742903608717729035087176290370871782862208617829038087179294400881782903908718028624086180290400871812862508618129041087182290420871832904308718429447088185290440871852944708818529045087186294480881862904608718729449088187290470871882904808718929049087190294530881912905908720029058087199290600872012906108720229065087206294680882062906608720729067087208290680872092947108820929070087211294730882112907108721229475088213290750872162907408721529076087217286600862162907808721928664086220290790872202866408622029080087221290810872222908208722328667086223290850872262948808822629086087227294890882272908808722929087087228290890872300000000000029090087231000000000002909108723200000000000)
 (.leaf 2909208723300000000000290930872340000000000029094087235000000000002909508723600000000000290960872370000000000029097087238000000000002909808723900000000000290990872400000000000029100087253000000000002910108735600000000000291040873592910308735829105087360295070883602910708736228694086361291090873642911008736529112087367287000863672912008737529119087374291210873762952408837729122087377295240883772912308737829525088378291240873792952508837829125087380295270883802912608738129528088381291280873832953008838329129087384295310883842913008738529131087386291320873872913308738829140087395291410873962914408739929145087400291500874052914908740429151087406291520874072915508741029154087409291570874122915808741329162087417295640884172916408741929566088419291660874210000000000029167087423000000000002916808742400000000000291690874250000000000029170087426000000000002917108742700000000000291750874310000000000029176087435000000000002918208744129181087440291850874442877708644429188087447291870874462918908744829190087449291960874552959408845629206087473292050874722920708747429605088474292080874752960608847529209087476296060884752921008747729608088477292170874842921608748329218087485296160884852921908748629617088486292200874872961808848729221087488296180884872922208748928817086489292230874902881708648929226087493292250874922923208749929231087498292330875002963108850029237087504292360875032923808750529239087506))
 (.node 1 (.leaf 2924608751328841086513292530875202884908652129260087527292590875262926108752829262087529292660875332966408853329269087536292680875352927608754329674088543292770875442967408854329278087545296750885442927908754628874086546292800875472928108754829285087552292840875512928608755328881086553292870875542928808755529289087556296880885572929008755729291087558292920875592969008855929293087560296910885602929508756229294087561292960875632969308856229297087564292980875652930208756929700088569293050875722930608757329307087574297050885742930808757529309087576293100875772970808857729311087578297090885782931208757929710088579293130875802971108858029314087581297110885802931508758229713088582293190875862891408658629320087587289150865872932108758829322087589293240875912892008659229326087593289210865932932708759428922086594293280875952892408659629329087596289240865962933008759728924086596293310875982972908859829332087599297300885992933308760029334087601293370876042973508860429338087605293390876062934308761029342087609293440876112934508761229346087613293450876122934708761429745088614293480876152974608861529349087616297470886162935008761729748088617293540876212935308762029355087622297520886212935608762329357087624293580876252895308662529359087626293600876272936108762828956086628293630876302936208762929364087631297610886302936508763229762088631293660876332896108663329367087634293680876352936908763600000000000)
 (.leaf 2937008764300000000000293710876440000000000029372087646000000000002937308766000000000000293750881132937408811229385088123293840881222939008812828987087128293910881292898808712929392088130289890871302939308813128990087131293940881322939508813329400088138294010881392940708814529004087145294080881462900608714729410088148290070871482941208815029008087149294130881512941408815229415088153294160881542942208816029421088159294230881612942408816229427088165294260881642942908816729428088166294300881682982708916829431088169294320881702943708817529436088174294380881762983508917629439088177298360891772944108817929440088178294430881812944208818029444088182294450881832945608819429853089194294570881952985408919529458088196298550891962946308820129462088200294640882022946508820329469088207294700882082947808821629477088215294790882172987508921629480088218290770872182948108821929482088220294830882212948408822229485088223298810892222948608822429884089225294870882252988508922629490088228298860892272949108822929492088230294930882310000000000029494088232000000000002949508823300000000000294960882340000000000029497088235000000000002949808823600000000000294990882370000000000029500088238000000000002950108823900000000000295020882400000000000029503088349000000000002951008836329509088362295110883642910808736329512088365291110873662951408836729111087366295200883732951908837229521088374295220883752952308837629920089377)))))
 (.node 8 (.node 4 (.node 2 (.node 1 (.leaf 2952608837929922089379295340883870000000000029535088388291340873892953608838929537088390295400883932993508939329545088398295460883992954808840129942089400295540884072955308840629559088412299550894132956008841329561088414295650884182996008941829567088420000000000002956808842500000000000295690884260000000000029571088428295700884272957208842900000000000295760884382917808743729578088440295770884392957908844129580088442295820884442958108844329587088449295880884502959708846629596088465295990884682959808846729600088469292010874682960108847029202087469296020884712920408747129603088472292040874712960408847330002089472296070884762960608847529613088482300110894812962108849029620088489296220884912962308849229624088493296230884922962808849729627088496296290884983002808949829630088499300290894992963308850229632088501296350885042963408850329636088505296370885062964208851129243087510296430885122924408751129644088513292450875122964608851529247087514296530885222965208852129654088523292560875232965608852529655088524296570885262925908752629658088527296590885282966008852929661088530296710885402967008853929672088541296730885422967708854629676088545296780885473007608954629679088548300780895482968008854929282087549296820885512968108855029683088552292840875512968408855329685088554296860885552968708855629694088563300930895632969508856430095089565296960885653009508956529701088570297020885712970308857229704088573)
 (.leaf 2970608857530105089575297070885762970808857729712088581301110895812971408858330112089582297150885842971608858529717088586297160885852971908858829718088587297200885892932208758929721088590293230875902972208859129325087592297230885923012308959329724088593301230895932972508859430125089595297260885952972708859629733088602297340886032973608860529737088606297400886093013908960929741088610301400896102975108862029750088619297530886222975208862129754088623297550886242976308863229762088631297640886333016408963429765088634000000000002976608863500000000000297670886440000000000029768088659000000000002976908866000000000000297700891110000000000029771089112000000000002977208911329773089114297740891152977308911429775089116293770881152977708911829776089117297790891202938108811929780089121293830881212978108912230180090121297820891232978308912429784089125293860881242979208913329395088133297940891352939708813529796089137293990881372979808913929402088140297990891402940308814129800089141298010891422980408914529406088144298060891472940908814729809089150298100891512981108915229812089153298190891602981808915929820089161298210891622982308916429822089163298240891653022409016529825089166298260891672982808916930228090169298290891702983008917129834089175298330891742983708917829836089177298380891793023909018029840089181302390901802984108918230241090182298420891832984308918429847089188294500881882984808918929451088189))
 (.node 1 (.leaf 2984908919029453088191298500891912945308819129851089192298520891932985608919729855089196298610892022986008920129862089203298630892042986808920929471088209298690892102947308821129873089214294760882142987608921730275090216298770892183027709021829878089219298790892202988008922129881089222298820892232988108922229883089224298840892252988708922800000000000298880892290000000000029889089230000000000002989008923100000000000298920892332989108923229893089234298940892352989608923700000000000298970892380000000000029898089327000000000002989908932800000000000299000893570000000000029902089359303000903592990408936129903089360299050893623030209036129908089365299070893642991008936729911089368299150893722991408937129916089373295190883722991708937429918089375299280893850000000000029929089387000000000002993008938800000000000299310893890000000000029932089390299330893912994508940329944089402299460894042955008840329947089405303450904052994808940630346090406299490894073034609040629951089409303500904102995208941030350090410299530894113035209041229954089412303520904122996208942400000000000299630894250000000000029965089427299640894262996608942829967089429299680894300000000000029969089431000000000002997008943200000000000299710894330000000000029975089437295740884362997608943829575088437299810894432958108844329982089444299830894452998408944629585088447299850894473038009044829986089448299870894493000408947430003089473)
 (.leaf 3000508947529606088475300060894763000708947730017089487300160894863002108949130020089490300260894963002508949530027089497304230904973003008950030425090499300310895013042609050030032089502304270905013003308950330428090502300340895043042909050330035089505304310905053003608950630037089507300440895143004308951330048089518300470895173004908951929649088518300500895202965008851930051089521296510885203005308952330449090523300540895242965508852430055089525304510905253005608952630452090526300570895273045309052730059089529300600895303006708953730066089536300680895383046309053730069089539304650905393007008954030466090540300710895413046709054130072089542296740885433007308954329674088543300740895442967408854330077089547300760895463008008955030079089549300810895513047809055230082089552304780905523008308955330478090552300840895543047909055330085089555300860895563008708955729689088558300880895583008908955930090089560300890895593009608956630095089565300990895693049509056930100089570301010895713010308957330104089574301060895763010708957730109089579301100895803011308958330112089582301140895842971608858530117089587301160895863011808958829718088587301190895893012008959030128089598297280885973012908959929731088600301300896003013108960130133089603301340896043014408961429744088613301470896172974808861730148089618301490896193015008962029750088619301590896293015808962830160089630301610896313016208963230163089633)))
 (.node 2 (.node 1 (.leaf 3016508964300000000000301660896440000000000030167089655000000000003016808965600000000000301690896570000000000030170090111000000000003017109011200000000000301740901153017309011430175090116301760901173017709011830176090117301810901223018009012130182090123301830901243018609012730581091127301870901282978708912830188090129301890901303019009013130191090132301920901332979108913230194090135301930901343019709013830196090137301990901403020009014130203090144302020901433020409014530205090146302070901482980708914830208090149298080891493020909015029810089151302130901543021409015530219090160306130911593022009016130221090162302230901643022209016330225090166306200911663022609016730227090168302290901703023009017130234090175306290911753023709017830236090177302380901793023909018030240090181306360911823024209018330243090184302440901853024509018630247090188302460901873024809018930642091188302490901903025009019130252090193302530901943025609019730255090196302570901982985708919830261090202302620902033026309020430658091204302640902053065909120530265090206298660892073026609020730661091207302670902082986708920830270090211298700892113027109021230272090213302730902143027209021330274090215298740892153027809021930279090220302800902213067509122130282090223306770912233028309022430284090225302860902270000000000030287090228000000000003028809022900000000000302890902303068309123130290090231000000000003029109023200000000000)
 (.leaf 3029209023300000000000302930902340000000000030294090235000000000003029509023600000000000302960903270000000000030297090328000000000003030709036630306090365303080903672990908936630309090368307020913693031109037030310090369303130903723031209037130314090373307050913723031509037430316090375303180903772992008937730319090378299210893783032009037929923089380303210903802992308938030326090385000000000003032709038700000000000303280903880000000000030329090389000000000003033009039000000000000303330903933033209039230335090395299380893963034709040730738091408303490904093074009141030351090411303520904123035709041730358090418303590904190000000000030360090426000000000003036109042700000000000303620904280000000000030363090429000000000003036409043000000000000303650904310000000000030366090434000000000003036709043500000000000303680904362997308943530376090444303770904453037809044630379090447303860904600000000000030387090461000000000003038809046200000000000303890904632999308946330391090465303900904643039809047230002089472304010904753040009047430402090476304030904773041509048930414090488304190904933041809049230420090494300240894943043209050630431090505304330905073003808950830440090514300430895133044209051630046089516304440905183044309051730445090519308280915193044609052030447090521304480905220000000000030458090532300620895323046409053830463090537304700905443046909054330472090546304710905453047309054730856091547))
 (.node 1 (.leaf 3047509054930474090548304760905503085909155030477090551304780905523048109055530480090554304830905573048209055630484090558000000000003048509055930486090560304880905623087109156230489090563308720915633049009056430094089564304910905653049209056630496090570304970905713049909057330500090574305010905753050209057630503090577000000000003050409057830505090579305070905813050609058030511090585305100905843051209058600000000000305130905873089609158730514090588308960915873051509058930516090590305220905963012608959630523090597301270895973052409059830907091598305250905993052609060030527090601309110916023052809060230912091603305330906073013708960730534090608301380896083053509060930139089609305390906133014308961330542090616301450896153054809062230549090623305510906253055009062430552090626301560896263055509062930554090628305560906303016108963130557090631305580906323055909063300000000000305620906450000000000030563090654000000000003056409065500000000000305660911123056509111130570091116305690911153057409112030573091119305750911213096209212130576091122301800901213057709112330964092123305780911243057909112530583091129305820911283058409113030585091131305860911323019109013230587091133309740921333058809113430975092134305900911363058909113530591091137309770921363059209113830979092138305930911393019809013930594091140305950911413059609114230202090143305970911433059809114430599091145305980911443060009114630601091147)
 (.leaf 3060209114830206090147306050911513021109015230606091152306070911533061009115630611091157306150911613100209216130616091162306170911633061809116431005092164306190911653062009116630621091167302270901683062209116831010092169306230911693062409117030626091172302310901723062709117330233090174306280911743062909117530632091178306310911773063309117931021092180306350911813063609118230638091184306390911853064309118930642091188306440911903103009218930645091191310320921913064609119230647091193306520911983065109119730653091199302580901993065409120030258090199306550912013026009020130656091202302620902033066009120631047092206306630912093026809020930665091211306640912103066609121230272090213306680912143027209021330678091224000000000003067909122700000000000306800912283106509222830681091229306820912303068409123200000000000306850912330000000000030686091235000000000003068709123900000000000306880912770000000000030689091278000000000003069009135700000000000306910913583029809035730698091365306970913643070009136730699091366307010913683070209136930703091370307020913693070409137130705091372307060913733109409237230707091374307080913753070909137600000000000307100913770000000000030711091378000000000003071209137900000000000307130913803110009238030714091381303220903813071509138230323090382307160913833032509038430717091384000000000003071809138500000000000307190913890000000000030721091391307200913903072309139330722091392))))
 (.node 4 (.node 2 (.node 1 (.leaf 3072409139430334090394307250913953033609039630727091397307260913963072909139930730091400307310914013073209140230733091403303430904033073409140430735091405307360914063112409240630739091409311280924103074609141630355090415307470914170000000000030748091427000000000003074909142800000000000307500914360000000000030752091438307510914373075309143930371090439307540914403037109043930756091442303740904423075809144430375090443307620914483076309144930769091460000000000003077009146100000000000307710914623115309246230772091463311540924633077309146430774091465307760914673039409046830777091468303950904693078009147130396090470307810914723039709047130782091473311650924743078309147431165092474307840914753078509147630803091494308020914933080409149530421090495308050914963042209049630806091497304230904973080909150030808091499308100915013042609050030811091502304270905013081709150830816091507308180915093043509050930819091510304360905103082009151130437090511308210915123082209151330823091514308220915133082409151531206092515308250915163044109051530826091517312080925173082709151831209092518308290915203121009251930830091521312120925213083109152231213092522308320915233121309252230833091524304500905243083509152630834091525308360915273045309052730837091528308380915293083909153030456090530308450915363046209053630851091542304670905413085209154330468090542308530915443047109054530854091545304710905453085509154630856091547)
 (.leaf 3085709154831240092549308580915493124009254930860091551312410925503086109155231242092551308620915533124309255230863091554312450925543086509155630864091555308660915573124809255730867091558312490925583086809155931250092559308690915603125109256030870091561312520925613087309156431255092564308740915653125609256530875091566304930905673087709156830876091567308780915693087909157030882091573308830915743088609157731269092578308870915783126909257830888091579312690925783089009158130889091580308910915823089209158330893091584312750925843089409158531276092585308950915863127709258630898091589308970915883089909159030517090591309000915913090109159230902091593309010915923090309159430520090594309040915953052109059530906091597309050915963090809159931291092600309150916063129709260630916091607312980926073091709160831299092608309180916093091909161030922091613309210916123092309161430540090614309240916153054109061530925091616305430906173092609161730927091618309280916193092709161830929091620305460906203093009162131312092621309320916233093309162430934091625309350916263093809162930937091628309390916303094009163130941091632000000000003094209164300000000000309440916453094309164430946091647000000000003094809165000000000000309490916510000000000030950091652000000000003095109165300000000000309540921133095309211230956092115309550921143095709211630958092117309590921183134009311830960092119313400931183096109212031343093121))
 (.node 1 (.leaf 3096309212230964092123309700921293096909212830971092130313510931293097209213131353093131309730921323097409213330978092137309770921363098009213930979092138309810921403136309314130982092141313630931413098309214230984092143309850921443059809114430986092145305980911443098909214830603091149309920921513137409315230993092152313740931523099409215330995092154310030921623100209216131004092163310050921643100609216531387093165310080921673138909316731009092168310100921693101109217031012092171310130921723062509117131014092173313960931743101509217431016092175310190921783101809217731020092179310210921803102209218131402093180310230921823140409318231024092183306370911833102509218431026092185310290921883102809218731031092190310320921913103409219330647091193310350921943103609219531038092197310370921963103909219831421093199310400921993142109319931041092200310420922013105109221031050092209310520922113143409321231053092212310540922133105509221431056092215310570922163143809321631058092217314380932163105909221831060092219310630922220000000000031064092227000000000003106609222900000000000310670922300000000000031068092239000000000003106909227700000000000310700922780000000000031071092343000000000003107209234400000000000310740923460000000000031075092347000000000003107609234800000000000310770923490000000000031078092352000000000003108209236030693091360310830923613069409136131088092366314670933663108909236731467093366)
 (.leaf 3109009236831469093368310950923733109609237431097092375000000000003109809237600000000000310990923790000000000031103092383311020923823110409238431480093384311050923853110609238631107092387000000000003110809239000000000000311100923923110909239131111092393314850933933111209239431487093395311140923963072609139631117092399311180924003112209240430735091405311310924133074309141331132092414307440914143113309241530745091415311340924163113509241731137092439311360924383113809244031510093439311390924413075509144131140092442307570914433114209244430759091445311430924453114409244631155092464311540924633115609246531157092466311590924683153209346831160092469307780914693116209247130779091470311630924723116409247331166092475315390934753116709247631168092477311780924873079509148631180092489307970914883118609249531185092494311870924963156009349631188092497315600934963118909249830807091498311900924993080809149931194092503311930925023119509250430812091503311970925063119609250531200092509311990925083120109251031202092511312190925283121809252731220092529308380915293122109253030840091531312230925323084209153331227092536316000935363122809253730846091537312290925383084709153831230092539308480915393123109254030849091540312320925413085009154131233092542308500915413123409254300000000000312350925443123609254531238092547312370925463123909254831240092549312440925533124309255231247092556312460925553125409256331253092562)))
 (.node 2 (.node 1 (.leaf 3125709256631256092565312580925673087609156731260092569312590925683126109257030880091571312620925713088009157131263092572308810915723126409257331265092574312660925753126709257631270092579312690925783127309258231274092583312780925873089609158731279092588316530935893128009258931653093589312810925903165309358931282092591309010915923128409259331283092592312850925943165709359331286092595312870925963128909259831290092599312920926013129309260231303092612309210916123130609261531305092614313090926183131009261931311092620313120926213131309262230931091622313150926243131409262331316092625309330916243131709262630935091626313190926283131809262731320092629313210926303132209264200000000000313250926453132409264431326092646309450916463132709264730947091648313280926483170309364831329092649000000000003133009265000000000000313310926510000000000031332092653000000000003133409311231333093111313370931153133609311431338093116000000000003133909311731340093118313410931193134009311831342093120000000000003134509312330964092123313480931263096709212631352093130313530931313135409313231728094131313550931333172909413231356093134317310941343135809313631357093135313610931393136009313831362093140317370941403136609314431365093143313670931453136809314631369093147309880921473137009314830990092149313710931493137209315031377093155309960921553137809315630997092156313790931573138009315831381093159313820931603138509316331761094164)
 (.leaf 3139009316831764094167313910931693176609416931393093171317680941713139409317231770094173313950931733177109417431397093175317730941763139809317631399093177314030931813177809418131405093183317790941823140609318431407093185314110931893178609418931412093190317860941893141509319331414093192314160931943179209419531418093196314170931953142009319831419093197314220932003142309320131424093202310430922023142509320331044092203314270932053104609220531431093209314300932083143209321031808094211314330932113143409321231435093213314340932123143609321431811094214314390932173144009321831441093219000000000003144209334100000000000314440933433144309334231445093344318190943443144609334531073092345314490933483144809334731450093349000000000003145109335000000000000314520933510000000000031453093352000000000003145409335300000000000314550933540000000000031456093355000000000003145709335600000000000314580933573107909235731460093359314590933583146109336031081092359314650933643146609336531468093367000000000003147109337000000000000314720933710000000000031473093372000000000003147409337300000000000314750933790000000000031477093381314760933803147809338231847094382314790933833184709438231481093385318490943843148209338631483093387314840933920000000000031488093396311130923953149009339831489093397314920934003111809240031494093402314950934033149709340531496093404314980934063112509240731502093410315030934113150409341231503093411))
 (.node 1 (.leaf 3150509341331506093414315080934160000000000031509093417000000000003151109344000000000000315120934410000000000031513093442318780944423151409344331141092443315150934443114109244331516093445311440924463151709344631145092447315180934473114609244831521093450315220934513152609346200000000000315280934643152709346331529093465318940944643153009346631895094465315310934673153209346831533093469315320934683153409347031901094471315350934713116109247031536093472311640924733153709347331165092474315380934743153909347531540093476315410934773154709348331173092482315490934853117509248431550093486311760924853155509349131182092491315610934973156009349631563093499315620934983156409350031192092501315650935013119209250131568093504315670935033156909350531196092505315740935103157309350931575093511312030925123157609351231203092512315770935133120409251331578093514312050925143157909351531206092515315800935163120709251631581093517315820935183158309351931582093518315840935203121109252031585093521319510945213158609352231587093523315930935293159209352831594093530312220925313159509353131222092531315960935323122409253331597093533312250925343159809353431226092535315990935353160009353631601093537319670945373160209353831603093539316040935403197009454031605093541319710945413160609354231972094542316070935433197309454331608093544319740945443160909354531975094545316100935463197609454631611093547319760945463161209354831613093549)
 (.leaf 3161409355031615093551316160935523161509355131617093553319830945533161809355431984094554316190935553124609255531620093556312460925553162109355731622093558316230935593198909455931624093560319890945593162509356131626093562316270935633162609356231628093564316290935653163009356600000000000316310935673199809456831632093568319980945683163409357031633093569316350935713200209457231636093572320020945723163709357331638093574316400935763163909357531641093577312690925783164309357931642093578316440935803127109258031645093581316460935823164809358431647093583316490935853201509458531655093591316540935903165609359231657093593316680936043129609260531669093605316700936063167209360832037094607316740936103130109261031675093611313020926113167609361231302092611316790936153168009361631681093617316800936163168209361831683093619316840936203168309361931685093621320500946203168609362231687093623316890936253168809362431690093626320560946263169109362732057094627316920936280000000000031693093629000000000003169409363000000000000316950936400000000000031696093641000000000003170009364531699093644317010936463206509464531702093647320660946463170409364900000000000317050936500000000000031706093651000000000003170709411000000000000317100941133133509311331711094114320720951133171209411532075095116317140941173171309411631715094118000000000003171609411900000000000317180941213208009512131719094122313440931223172309412631722094125))))))
 (.node 16 (.node 8 (.node 4 (.node 2 (.node 1 (.leaf 3172409412731349093127317320941353173109413431734094137317330941363173509413831359093137317360941393173709414031738094141317370941403173909414231740094143317410941443136509314331742094145317430941463174709415031372093150317480941513211109515231749094152313740931523175009415331376093154317510941543175209415531767094170317680941713176909417232130095171317720941753213509517631776094179321380951793177709418032139095180317800941833214209518331781094184317820941853178809419131787094190317890941923141409319231790094193321520951933179109419432153095194317940941973215609519731795094198321570951983179609419931797094200317990942023179809420131802094205318030942063180409420731429093207318050942083216709520831806094209321680952093180709421032168095209318100942133180909421231812094215318110942143181609434100000000000318180943433181709434231820094345314470933463182209434731821094346318230943483218509534831824094349321850953483182509435032187095350318260943513218809535131827094352318280943533183009435532193095356318310943563219309535631833094358318320943573183409435932195095358318350943603146209336131836094361321990953623183709436231463093362318380943633146409336331839094364318400943653184209437700000000000318430943780000000000031844094379000000000003184509438000000000000318460943810000000000031848094383322100953833185009438532212095385318510943863185209438731853094388000000000003185409439300000000000)
 (.leaf 3185509439400000000000318560943950000000000031857094396000000000003185809439732220095398318590943983222009539831860094399314910933993186109440031862094401318630944023149309340131864094403318650944043186609440532227095405318680944073186709440631869094408315010934093187009440932231095409318710944103150309341131872094411318730944123187409441332235095413318750944143187609441531877094441000000000003187909444331878094442318800944443224309544331881094445322440954443188309444731882094446318840944483188509444931886094450318870944513189009445431891094455318930944630000000000031896094466318950944653189709446731898094468319000944703226409547131902094472322660954733190309447332266095473319040944743226709547431905094475315390934753190609447631541093477319070944773154109347731909094479315430934793191009448031544093480319140944843154809348431915094485322780954853191609448632278095485319170944873155109348731918094488315520934883192009449031554093490319210944913155609349231924094494315580934943193009450031929094499319310945013193209450231935094505315700935063193609450631570093506319370945073157109350731938094508315720935083193909450931573093509319420945123194109451131943094513323060955133194409451432307095514319450945153230809551531947094517319460945163194809451831582093518319490945193195009452031955094525319540945243195609452631957094527319610945313196009453031963094533319620945323196409453431965094535))
 (.node 1 (.leaf 3197809454831977094547319790945493234109554831980094550323430955503198109455131615093551319880945583235109555831990094560323530955603199109456132354095561319920945623235509556231993094563323550955623199409456432357095564319950945653199609456631997094567319960945663200109457132002094572320030945733236609557332004094574323660955733200509457531639093575320070945773200609457632008094578320090945793201009458032011094581320140945843201509458532018094588316520935883202309459332022094592320240945943165809359432025094595316600935963202609459631661093597320270945973202809459832032094602320330946033203509460532399095606320360946063239909560632039094609320380946083204009461031673093609320470946173204809461832051094621000000000003205209462200000000000320530946230000000000032054094624000000000003205509462500000000000320580946280000000000032059094639000000000003206009464000000000000320610946410000000000032062094642000000000003206409464432063094643320680946480000000000032069094649000000000003207009511100000000000320710951123170809411132073095114320720951133207609511732075095116320770951183243109611932078095119324310961193207909512031717094120320810951223208009512132082095123317200941233208309512431721094124320870951283172509412832088095129317250941283209009513131728094131320910951323172909413232092095133317300941333209309513432446096134320940951353244709613532097095138320960951373209909514032452096140)
 (.leaf 3210009514132452096140321010951423245509614332102095143321030951443210709514832108095149321140951553175209415532115095156321160951573211809515932119095160321200951613212109516232124095165324770961653212509516632478096166321280951693248009616832129095170324830961713213109517232485096173321370951783213809517932141095182321400951813214309518432144095185321490951903214809518932150095191317870941903215109519232152095193321550951963215609519732159095200317970942003216009520131798094201321630952043216209520332169095210325210962093217009521131808094211321720952133252509621332174095215321730952143217509521631813094216321760952173217709521832178095219000000000003218309534632184095347321860953493218509534832189095352321880953513219009535331829094354321910953543182909435432194095357325480963573219609535932550096359321970953603255109636032198095361325520963613220009536332553096362322010953643220209536532204095377000000000003220509537832206095379322070953800000000000032208095381000000000003220909538200000000000322110953843256009638432213095386322120953853221409538732215095388322170953900000000000032218095396000000000003221909539700000000000322240954023257409640332226095404322250954033222809540632577096406322290954073223009540832234095412322330954113223609541432237095415322380954260000000000032239095427000000000003224009542800000000000322410954290000000000032242095430000000000003224609544632245095445)))
 (.node 2 (.node 1 (.leaf 3224709544732602096448322480954483260209644832249095449326030964493225009545032605096451322510954513188809445232252095452318890944533225309545331889094453322540954543188909445332255095455322560954563225809546532257095464322590954663261309646632260095467326140964673226309547032264095471322710954783227009547732274095481319110944813227509548231912094482322760954833191309448332277095484322780954853227909548632278095485322800954873263409648732281095488326350964883228209548931919094489322830954903263709649032284095491319220944923228509549231923094493322870954943192509449532293095500322920954993229409550132647096500322950955023193209450232296095503319330945033229709550431934094504322980955053193409450432299095506323000955073230209550932303095510323090955163230809551532310095517323110955183231209551932311095518323130955203195009452032314095521326690965223231509552232670096523323160955233267009652332317095524326710965243231809552532672096525323190955263267309652632320095527326740965273232109552832675096528323280955353232909553632331095538319680945383233409554131971094541323350955423197209454232336095543319730945433233709554431974094544323440955513234309555032345095552319820945523234609555331983094553323470955543198409455432352095559323530955603236009556732359095566323610955683271509656832362095569323630955703236409557132365095572323700955770000000000032371095578320090945793237209557932009094579)
 (.leaf 3237309558032374095581323760955833201309458332379095586320160945863238009558732017094587323810955883238209558932383095590320200945903238709559432741096594323880955953238909559632392095599320290945993239309560032030094600323940956013239509560232396095603323970956043240209560932401095608324030956103204109461132404095611324050956123240609561332407095614324080956153240709561432409095616320460946163241209561932049094619324130956200000000000032415095638000000000003241609563900000000000324170956400000000000032418095641000000000003241909564200000000000324200956440000000000032421095645000000000003242209564600000000000324240961123242309611132428096116000000000003243009611832429096117324320961200000000000032433096121324340961223243609612432435096123324370961253278509712532440096128320860951273244109612932442096130324430961313279109713132444096132327920971323244509613332793097133324500961383245109613932456096144324550961433245709614532458096146324590961473210609514732462096150321090951503246309615132464096152324670961553281509715532468096156324690961573247509616332476096164324810961693282909716932482096170324830961713249309618132492096180324950961833284309718332496096184321440951853249709618532144095185324980961863214509518632501096189325000961883250209619032849097189325030961913285109719132509096197321560951973251009619832157095198325110961993286009720032512096200328600972003251409620232513096201))
 (.node 1 (.leaf 3251509620332161095202325160962043286509720532517096205321640952053251809620632519096207325200962083286809720832522096210328700972103252709621532875097215325280962163287609721632529096217000000000003253009621800000000000325310962190000000000032532096220000000000003253409634332533096342325350963443288209734332536096345328840973453253709634632885097346325400963493253909634832546096355325450963543254709635632548096357325540963633290309736432555096364329030973643255609636500000000000325570963660000000000032558096377000000000003255909637800000000000325610963853290809738532562096386329100973873256309638732910097387325640963883221609538932565096389325660963903256809639200000000000325700963993256909639832572096401325730964023257609640532575096404325780964073292809740832579096408322300954083258009640932231095409325810964103258209641132585096414329340974143258609641532587096416325890964250000000000032590096426000000000003259109642700000000000325920964280000000000032593096429000000000003259409643000000000000325980964443259709644332599096445326000964463260409645032969097451326070964533297109745332608096454329730974553260909645532610096456326120964653261309646632615096468322610954683261609646932262095469326170964703261809647132619096472322650954723262009647332266095473326310964843263009648332632096485322780954853263609648932637096490326380964913263709649032639096492322860954933264009649332286095493)
 (.leaf 3264109649432288095495326440964973300709749732645096498330070974973264909650232648096501326500965033265109650432656096509326550965083265709651032658096511326600965133265909651232662096515326610965143266309651632664096517326670965203303109752132668096521330310975213268309653632682096535326860965393268509653832687096540323320955393268809654132333095540326890965423305209754232690096543330530975433269109654432338095545326920965453233809554532693096546323390955463269809655132697096550326990965523270009655332702096555327030965563270609655932707096560327100965633271109656432712096565330750975653271309656633076097566327140965673307709756732716096569330790975693271709657033080097570327180965713308109757132719096572323650955723272009657332365095572327210965743236709557432722096575323680955753272309657633086097576327240965773308709757732725096578330870975773272609657932727096580327280965813237409558132729096582323750955823273109658432377095584327320965853237809558532733096586330970975873273409658733097097587327350965883309809758832737096590327360965893273909659232738096591327420965953310509759532743096596323900955973274409659732745096598327460965993311009760032747096600327480966013275009660333113097603327510966043311309760332756096609327550966083275709661033120097610327590966123275809661132762096615324070956143276309661633126097616327640966173241009561732765096618324110956183276609661900000000000))))
 (.node 4 (.node 2 (.node 1 (.leaf 3276709664000000000000327680966410000000000032769096642000000000003277009664600000000000327730971133277209711232774097114331370981143277509711533138098115327790971193277809711832780097120000000000003278109712100000000000327830971233243509612332786097126331490981263278709712732439096127327880971283315109812832789097129331510981283279009713032791097131327980971383245109613932799097139324510961393280109714132800097140328020971423245409614232803097143331660981433280509714532804097144328070971473280609714632809097149331730981503281009715032811097151328190971593318309816032820097160328210971613283009717033193098170328310971713283209717232840097180332020981793284709718732846097186328480971883321009818732854097194325070961953285509719532507096195328560971963250809619632857097197332200981973285809719833222098199328590971993322209819932862097202328610972013286909720933232098209328710972113252309621132874097214000000000003287709721700000000000328780972180000000000032879097219000000000003288009722000000000000328910973523254209635132892097353325430963523289309735433250098353328940973553289509735632896097357325490963583289709735832898097359329010973620000000000032902097363000000000003290409737600000000000329050973770000000000032906097378000000000003290709737900000000000329090973860000000000032912097389329110973883291309739032567096391329160973930000000000032917097394000000000003292009740032919097399)
 (.leaf 3292109740132571096400329220974023292309740332927097407332830984073293009741033286098410329310974113328609841032935097415329340974143293609741600000000000329370974170000000000032938097418000000000003293909741900000000000329400974200000000000032943097423000000000003294609742632945097425329520974323259609643232956097438000000000003295709743900000000000329580974400000000000032959097441000000000003296009744200000000000329620974443296109744332965097447329640974463296609744832967097449329720974543297109745332974097456329750974573297709746500000000000329790974693297809746832980097470329810974713298309747332984097474329880974783262509647832995097485329940974843299609748633357098486329970974873263409648732998097488333590984883299909748933360098489330000974903336009848933001097491333630984923300209749233364098493330030974933336509849433004097494326420964953300509749532643096496330090974993300809749833010097500333700984993301109750133372098501330120975023337309850233013097503333730985023301509750533375098504330160975063337609850533025097515330260975163304509753533406098535330460975363304709753733048097538330470975373304909753933410098539330500975403341109854033051097541334120985413305509754533054097544330600975503305909754933061097551334220985513306209755233423098552330630975533342409855333064097554330650975553306909755932707096560330710975613270809656133072097562327090965623307309756333074097564))
 (.node 1 (.leaf 3308209757233081097571330830975733308409757433089097579330880975783309009758032727096580330910975813309209758233093097583327300965833309409758433455098584330950975853345709858633096097586330970975873310009759033099097589331010975913346209859133102097592334640985933310309759333465098594331060975963346709859633107097597327450965983310809759833109097599331110976013347309860233119097609331180976083312309761332760096613331270976173348809861733128097618331290976193313009764000000000000331310976410000000000033132097642000000000003313309810300000000000331390981163313809811533140098117327760971163314209811933141098118331430981200000000000033144098121000000000003314509812232782097122331520981293351409912933153098130000000000003315409813133155098132331560981333315509813233157098134327940971343316009813732796097136331610981383279709713733162098139335240991393316709814433166098143331680981453352909914433169098146335300991453317009814732806097146331710981483280809714833172098149335350991503317409815133536099151331750981523317609815333178098155331790981563318109815833544099159331870981643318809816533190098167335530991683319409817133556099171331950981723355709917233196098173331970981743320109817833200098177332040981813320309818033206098183332050981823320809818533207098184332130981903284909718933214098191328510971913321509819233578099193332170981943321609819333218098195335800991953321909819633220098197)
 (.leaf 3322409820133223098200332250982023286309720333226098203335890992043322709820432865097205332280982053322909820633230098207335930992083323109820833232098209332330982103323409821133236098213000000000003323709821400000000000332380982150000000000033240098343332390983423324109834433599099343332420983453288409734533244098347328850973463324609834933245098348332470983503288909735033248098351328900973513324909835233608099352332510983543325009835333253098356332520983553325409835732895097356332550983583325609835933257098360328990973603325909837600000000000332610983783326009837733262098379000000000003326309838500000000000332640983860000000000033265098388000000000003326709839033266098389332680983913291409739133269098392332700983933327109839400000000000332720983950000000000033273098396000000000003327709840133276098400332780984020000000000033279098403000000000003328009840433638099404332820984063328309840733284098408000000000003328709841100000000000332890984130000000000033290098414000000000003329109841500000000000332920984170000000000033293098418000000000003329409841900000000000332960984213294109742133297098422329420974223329809842332944097424332990984243294409742433300098425329440974243330109842632947097427333020984273330309842833305098430333060984313330909843432954097434333100984353295509743533311098436000000000003331409843900000000000333160984413331509844033319098444333180984433332009844532963097445)))
 (.node 2 (.node 1 (.leaf 3332109844633322098447333230984483332409844933325098450333260984513333009845533687099455333310984563368809945633332098457336900994583333309845833334098459333350984600000000000033336098465000000000003333709846633338098467333410984703334009846933342098471333430984723334509847433702099474333460984753370209947433347098476337040994763334809847732986097476333490984783298709747733350098479329890974793335109848032990097480333540984833299309748333356098485333550984843335809848733357098486333620984913336109849033371098500337280995003337909850833378098507333800985093301909750933381098510333820985113338909851833746099518333900985193374809952033392098521333930985223339609852533397098526334150985443377209954433416098545337730995453341709854633773099545334180985473377409954633419098548337760995483342009854933777099549334210985503377709954933425098554337820995543342609855533784099556334270985563378409955633428098557330670975573342909855833068097558334320985613343309856233434098563334350985643344009856933439098568334410985703344209857133443098572334420985713344409857333445098574334520985813381009958233458098587334590985883346809859733824099596334690985983382609959833470098599334710986003347209860100000000000334760986053311509760533477098606338330996073347809860733834099608334790986083383409960833480098609338350996093348409861333483098612334860986153348709861633489098618000000000003349009861900000000000)
 (.leaf 3349109863900000000000334920986400000000000033493098641000000000003349409864200000000000334960991110000000000033498099113331350981123349909911433500099115335010991163350009911533503099118335020991173350409911900000000000335050991203386010012133506099121338601001213350709912200000000000335090991243386310012433511099126331490981263351209912733150098127335130991283315109812833516099131331550981323351909913433518099133335200991353315809813533522099137335230991383353109914633530099145335330991483353209914733534099149335350991503353909915433540099155335480991633354909916433552099167335530991683355809917333912100173335600991753356109917633563099178339181001793356709918233566099181335680991833356909918433572099187339261001873357309918833926100187335740991893321109818833575099190332120981893357609919133930100191335770991923393010019133579099194339321001933358409919933583099198335870992023358609920133588099203335890992043359209920733946100207335960992110000000000033597099212000000000003360109934533600099344336020993463324309834633603099347339571003463360509934933604099348336060993503360709935133611099355336100993543361209935633967100356336130993573396810035733614099358336150993593361709936700000000000336180993680000000000033621099378336200993773362209937900000000000336230993890000000000033624099390000000000003362509939133626099392336280993940000000000033629099395000000000003363009939600000000000))
 (.node 1 (.leaf 3363109939700000000000336320993980000000000033633099399000000000003363509940133634099400336360994023363709940333640099406000000000003364109940700000000000336420994080000000000033643099411000000000003364409941200000000000336450994130000000000033646099414000000000003365009941833649099417336510994193365209942033656099424336550994233365709942534008100424336580994263365909942733661099429336620994303366309943133662099430336650994333366409943233670099438336690994373367109943933313098438336720994403367309944133674099442333170984423367509944333676099444336810994493368009944833683099451336820994503368409945233685099453336890994573404110045733692099460000000000003369409946633693099465336950994673333809846733696099468333390984683369709946933698099470336990994713404910047133700099472333440984733370109947333344098473337030994753370209947433708099480337070994793370909948133352098481337100994823335309848233711099483333530984823371309948533712099484337160994883371509948733720099492337190994913372109949334070100492337220994943407110049333723099495333660984953373209950433731099503337330995053337609850533735099507337340995063373609950833378098507337370995093408710050933738099510340891005113373909951134090100512337400995123409010051233741099513337420995143374309951533742099514337440995163374509951733750099522337510995233376509953734116100538337660995383376709953933785099557337840995563378809956033789099561)
 (.leaf 3379409956633795099567337960995683414610056833797099569337980995703379909957133442098571338000995723344209857133805099577334480985773380609957833449098578338070995793345009857933808099580338090995813381209958433811099583338130995853345609858533814099586341641005863381509958733459098588338200995923417110059333822099594341721005943382309959534173100595338270995993382809960033829099601000000000003383109960533830099604338320996063383309960733836099610341871006113383709961134187100611338390996133383809961233840099614334850986143384109961534191100615338420996160000000000033843099617000000000003384409961800000000000338470996413384609964033848099642334950986433384909964300000000000338501001110000000000033851100112000000000003385210011333497099112338531001143385410011533858100119338571001183386210012333861100122338651001260000000000033868100129000000000003387010013133515099130338711001323351709913233872100133335170991323387310013434220101134338741001353422110113533875100136335210991363387610013733521099136338771001383422510113933878100139338791001403388110014233527099142338821001433352809914333886100147338851001463388710014833888100149338911001523353709915233892100153338931001543390410016533905100166339061001673355309916833907100168342551011693391010017133911100172339141001753391510017633917100178339181001793392110018233920100181339221001833426810118233923100184339241001853392510018634271101185)))))
 (.node 8 (.node 4 (.node 2 (.node 1 (.leaf 3392710018834274101188339281001893427510118933929100190342761011903393110019234277101191339331001943428010119433934100195342821011963393610019734283101197339381001993393910020033940100201335850992003394310020434290101204339441002053429110120533945100206339461002073394710020834293101207339491002103429710121133950100211000000000003395110029700000000000339531003423395210034133964100353343111013533396510035434312101354339661003553431310135533971100364000000000003397210036500000000000339731003660000000000033974100367000000000003397510036800000000000339771003773397610037633978100378343251013793397910037900000000000339801003900000000000033981100391000000000003398210039233983100393339841003950000000000033985100396000000000003398610039900000000000339881004013398710040033989100402343331014023399010040333991100404339931004060000000000033994100407000000000003399510041000000000000339971004133399610041233998100414339991004153400910042534008100424340111004273366009942834014100430340131004293401610043234015100431340201004363401910043534026100442340251004413402710044333676099444340281004443402910044534030100446340291004453403110044734032100448340341004503437810145034035100451343801014523403610045234381101453340371004533403810045434042100458000000000003404510046734044100466340461004683438810146734047100469343891014683405510047734054100476340621004843406110048334064100486340631004853406910049134068100490)
 (.leaf 3407310049534072100494340741004963372409949634075100497337250994973407610049833726099498340771004993372709949934078100500337290995013407910050133729099501340801005023373009950234081100503337310995033408410050634083100505340851005073408610050834100100522341011005233410410052634105100527341241005463377409954634125100547337750995473412610054833776099548341281005503377809955034129100551337790995513413010055233780099552341321005543378309955534133100555337840995563413810056033789099561341391005613379009956234140100562337910995633414110056333792099564341421005643379309956534143100565341441005663414510056734146100568341471005693449010156934148100570341491005713415210057434151100573341531005753380309957534154100576338040995763415510057733804099576341561005783449910157834157100579345011015803415810058034501101580341591005813450310158234161100583341601005823416210058434506101585341661005883416710058934168100590345121015913416910059134512101591341741005963451710159634176100598000000000003417710059900000000000341781006020000000000034180100604341791006033418110060500000000000341821006060000000000034185100609000000000003418910061334188100612341901006140000000000034194100641341931006403419510064234534101642341961006430000000000034197100644000000000003419810111200000000000341991011133453810211434200101114345391021153420110111534539102115342031011173420210111634204101118345411021173420510111933859100120))
 (.node 1 (.leaf 3420610112034207101121342091011230000000000034210101124338631001243421310112733866100127342141011283386710012834215101129345531021293421610113033869100130342171011313421810113234223101137342241011383422610114033879100140342271011413456510214134230101144342291011433423110114533884100145342321011463388410014534233101147345711021473423410114834235101149342361011503388910015034237101151338901001513423810115234577102153342391011533424010115434241101155342421011563424310115734582102158342441011583458310215934245101159338991001603424610116034247101161342481011623424910116334261101175342621011763426310117734264101178342661011803426510117934267101181346051021813426910118334608102184342731011873461010218634278101192346161021923427910119334280101194342811011953461910219534284101198342831011973428710120133941100202342891012033429010120434292101206346311022073429410120834631102207342951012090000000000034296101210000000000003429810129700000000000342991013410000000000034302101344346381023433430310134534641102346343051013473430410134634309101351346461023513431810136200000000000343191013630000000000034320101365000000000003432110136600000000000343221013760000000000034323101377343241013783432610139100000000000343271013920000000000034328101393343291013943433010139900000000000343311014000000000000034332101401000000000003433410140333991100404343351014043399110040434336101405000000000003433710140600000000000)
 (.leaf 3433810140700000000000343391014110000000000034340101412000000000003434310141534342101414343451014173434410141634346101418340011004173434710141934003100419343481014203400410042034349101421343501014223435210142434007100423343531014253469210242634356101428343551014273435810143034357101429343611014333469810243234362101434347011024353436310143534364101436343661014383470410243834367101439347051024393436910144134368101440343701014423470710244134374101446347121024463437510144734712102446343791014513471710245134384101456343851014573438710146600000000000343911014703439010146934392101471340491004713440010147934399101478344061014853440510148434412101491344111014903441510149434414101493344201014993441910149834421101500347561025003442610150534425101504344281015073408610050834429101508347651025093443010150934431101510344431015223410110052334446101525344471015263445410153334455101534344591015383411610053834460101539341171005393446110154034118100540344621015413411910054134463101542341201005423446410154334121100543344651015443412210054434466101545341231005453446710154634802102546344681015473480310254734469101548348041025483447010154934804102548344731015523447210155134474101553341311005533447710155634135100557344781015573413510055734479101558341361005583448210156134481101560344831015623448410156334485101564348201025643448710156634488101567344911015703414910057134492101571341491005713449310157234150100572)))
 (.node 2 (.node 1 (.leaf 3449610157534495101574344971015763449810157734500101579344991015783450210158134837102581345041015833450310158234505101584345061015853450810158734507101586345091015883451010158934511101590345121015913451810159700000000000345201016020000000000034521101603000000000003452210160400000000000345231016050000000000034524101606000000000003452510161000000000000345281016133452710161234529101614000000000003453010161500000000000345321016403453110163934533101641341931006403453510164300000000000345361021120000000000034537102113000000000003454310211934542102118345441021203420710112134547102123000000000003454810212434877103124345491021253421110112534550102126342121011263455110212734880103127345521021283488110312834554102130348831031303455510213100000000000345611021373489110313834562102138345631021393456410214034563102139345691021453489810314534570102146348981031453457210214834901103148345731021493490210314934574102150349031031503457510215134904103151345761021523490510315234579102155345801021563459010216634252101166345911021673425410116834592102168345931021693459410217034923103170345951021713492510317234596102172345971021733460410218034933103180346061021823493610318334607102183349361031833461210218834611102187346211021973428210119634622102198349501031973462310219934285101199346241022003428610120034625102201342881012023462610220234627102203346281022043495710320434630102206349601032073463210220834960103207)
 (.leaf 3463310220900000000000346341023020000000000034635102305000000000003463910234434638102343346431023483464210234734645102350346441023493464810235334647102352346491023543431110135334650102355343141013563465110235634980103356346521023573498110335734653102358349821033583465410235934317101359346551023600000000000034656102362000000000003465710237600000000000346581023770000000000034659102378000000000003466010238600000000000346611023880000000000034662102389000000000003466310239000000000000346641023910000000000034665102392000000000003466610239300000000000346671023940000000000034668102401000000000003467010240334669102402346711024043467210240534673102406000000000003467410240700000000000346751024080000000000034676102409000000000003467710241100000000000346781024120000000000034684102418346831024173468510241935011103418346861024203468710242134697102431346961024303469910243334698102432347001024343470110243534709102443347081024423471010244434711102445347131024473471210244634714102448347151024493471910245334720102454347221024563472310245734726102470347251024693472710247134393101472347281024723439310147234729102473343941014733473010247434394101473347391024833440410148334742102486347411024853474910249334748102492347501024943441410149334751102495350791034953475310249734752102496347541024983508110349734758102502347571025013476010250434759102503347611025053508810350434762102506344271015063476310250734427101506))
 (.node 1 (.leaf 3476410250834765102509347681025123443310151234778102522344441015233479410253834793102537347971025413479610254034798102542351271035433479910254335127103543348011025453480210254634809102553348081025523481010255434475101554348111025553447510155434813102557348121025563481410255835143103559348151025593481610256034819102563348201025643482110256534486101565348231025673448910156834827102571348261025703482810257234829102573348301025743449510157434831102575344951015743483210257634833102577348341025783516310357934835102579351631035793483610258035164103580348391025833483810258234840102584351671035833484310258734844102588348501025943485110259534852102602000000000003485310260300000000000348561026123485510261134857102613351861036123485810261435188103614348591026153518910361534860102616000000000003486310264135198103642348651026430000000000034867103114000000000003486810311500000000000348711031183487010311734873103120348721031193487410312134545102121348761031230000000000034878103125352111041253487910312635212104126348841031313521710413134887103134345581021343488910313634890103137348941031413489310314034896103143348951031423489710314434568102144348991031463489810314534900103147352341041483490910315634910103157349181031653491910316634922103169349231031703493410318135267104181349351031823526710418134938103185352711041853493910318634609102185349421031893527410418834946103193349451031923495110319834950103197)
 (.leaf 3495210319935285104199349531032003528610420034954103201352871042013495510320234627102203349561032033495710320434959103206000000000003496110320800000000000349621032090000000000034963103302000000000003496410330300000000000349651033410000000000034971103347349701033463497210334834642102347349731033493530510434934974103350353061043503497810335434977103353349791033553498010335634983103359000000000003498410338400000000000349851033850000000000034986103386000000000003498710338700000000000349881033880000000000034989103389000000000003499010339000000000000349911033910000000000034992103392000000000003499310339300000000000349941034000000000000034995103401000000000003499710340300000000000349981034040000000000034999103405000000000003500010340600000000000350011034070000000000035002103408000000000003500310340900000000000350041034110000000000035005103412000000000003500610341300000000000350081034153500710341435009103416346821024163501010341734682102416350131034203501210341935015103422350141034213501610342300000000000350171034243469010242435018103425346911024253501910342634692102426350221034293502110342835023103430000000000003502510343235355104432350261034333502710343435028103435347011024353502910343634702102436350321034393503310344035034103441353641044413503510344235365104442350381034453503710344435040103447350391034463504110344835371104448350421034493504310345035044103451353731044503504810345534721102455))))
 (.node 4 (.node 2 (.node 1 (.leaf 3504910345634721102455350501034570000000000035053103469350521034683505810347435057103473350591034753473110247535068103484347401024843507410349035073103489350751034913540410449035076103492347481024923507710349334748102492350781034943507910349535080103496354101044963508310349935413104499350931035090000000000035094103510347651025093509510351134767102511350961035123542610451235097103513347691025133511610353234788102532351171035333478910253335118103534347901025343511910353534791102535351201035363479210253635126103542351271035433513010354634802102546351351035513513410355035137103553351361035523513810355435139103555351401035563547010455635141103557354711045573514210355835473104559351451035613481710256135146103562348181025623514710356335148103564351501035663515110356735154103570351531035693515510357135156103572351571035733515610357235158103574351591035753516110357735162103578351661035823516510358135169103585354991045853517810359435179103595351811035970000000000035182103601000000000003518310360900000000000351841036100000000000035185103611348551026113518710361335519104613351901036163552210461635191103617000000000003519210363600000000000351931036370000000000035195103639351941036383519610364034862102640351991036430000000000035200104114000000000003520110411500000000000352021041163486910311635206104120352051041193520710412134875103122352081041223553910512335209104123355391051233521010412400000000000)
 (.leaf 3521410412800000000000352181041323488510313235219104133348861031333522010413434886103133352211041353488810313535222104136352231041373522410413835554105138352261041403555610514035227104141355571051413522910414335228104142352301041443556010514435231104145352321041463523510414935236104150352371041513490510315235238104152349061031533524710416134915103162352481041623524910416335252104166355821051663525310416735584105168352541041683558410516835256104170349241031713525710417134924103171352591041733492610317335260104174349271031743526210417635263104177352641041783493110317835265104179352661041803526810418235269104183352731041873560210518635275104189352741041883527910419334945103192352821041963494810319535283104197349501031973529110420535622105206352921042060000000000035293104207000000000003529410420800000000000352951042090000000000035296104308000000000003529710430900000000000352981043420000000000035299104343349671033433530110434535630105345353021043463563110534635307104351353061043503530810435234976103352353111043553531210435635314104358000000000003531510437700000000000353161043840000000000035318104386353171043853531910438735652105386353201043880000000000035321104389356561053903532210439000000000000353231043910000000000035324104392000000000003532510440100000000000353281044043532710440335329104405000000000003533010440600000000000353311044070000000000035332104408000000000003533310440900000000000))
 (.node 1 (.leaf 3533410441000000000000353351044120000000000035336104413000000000003534110441835340104417353421044190000000000035344104421350141034213534510442235674105422353461044233567610542435347104424353481044253535210442935351104428353531044303568210543035357104434353561044333535810443535359104436353611044383536010443735362104439353631044403536910444635368104445353721044493537310445035375104452353741044513537610445335705105453353781044553537710445435379104456357081054563538010445735381104458353821044680000000000035389104475353881044743539010447635060103476353911044773506110347735398104484350671034833539910448535069103485354061044923540510449135407104493357391054933540810449435739105493354121044983574410549835415104501354141045003542110450735420104506354221045083542310450935436104522351071035233544910453535448104534354501045363545110453735454104540354531045393545510454135125103541354561045423512510354135457104543351271035433545810454435128103544354591045453512910354535462104548354611045473546310454935132103548354671045533546610455235468104554354691045553547210455835804105558354771045633514810356435478104564351491035653547910456535149103565354811045673515110356735482104568351521035683548310456935153103569354841045703515310356935487104573354861045723548810457435489104575354921045783516210357835493104579354941045803549610458235827105581354971045833582910558335500104586354991045853550110458735172103588)
 (.leaf 3550210458835503104589355071045933550810459435512104600000000000003551310460100000000000355151046030000000000035516104610000000000003551710461100000000000355231046170000000000035524104618000000000003552510463600000000000355301046410000000000035532105116355311051153553310511735534105118355351051193553410511835536105120358741061193553810512235537105121355401051243587910612435541105125000000000003554210512635881106126355431051273521310412735544105128000000000003554510512935884106129355471051313588610613135550105134355491051333555110513535890106135355521051363589110613635559105143355581051423556210514635561105145355631051473556410514835565105149355641051483556610515035567105151355691051533524010415435570105154355711051553557710516135578105162355791051633591810616335580105164359201061653558310516735922106167355871051713558610517035588105172352581041723558910517335928106173355901051743526110417535591105175352611041753559210517635593105177355941051783593310617835595105179359341061793559610518035597105181356001051843526910418335606105190356051051893560710519135946106191356081051923527810419235609105193352781041923561010519435280104194356111051953528010419435612105196352811041953561310519735284104198356151051993561610520035618105202356191052033562310520700000000000356241052080000000000035625105309000000000003562610534100000000000356271053420000000000035628105343000000000003562910534435968106344)))
 (.node 2 (.node 1 (.leaf 3563310534835632105347356341053493530410434835637105352356361053513563810535335309104353356391053543531010435435640105355356411053563564210537200000000000356451053750000000000035646105377000000000003564710537800000000000356481053790000000000035650105381000000000003565110538200000000000356541053883565310538735655105389356561053903565710540300000000000356581054043600810640535659105405000000000003566010540600000000000356611054080000000000035662105409000000000003566310541000000000000356641054110000000000035665105413000000000003566610541400000000000356671054150000000000035668105416353381044153566910541735339104416356701054183601810641735671105419353431044203567210542035673105421356751054233567610542435677105425353481044253567810542635350104427356801054283567910542735681105429360301064293568610543435685105433356891054373603910643835690105438360391064383569110543936041106440356921054403604110644035693105441360421064413569410544236043106442356951054433604410644335698105446356971054453570010544836049106448357011054493537310445035704105452357031054513571010545800000000000357181054723571710547135719105473360721064723572010547435388104474357231054773572210547635724105478353921044783572510547935393104479357261054803539410448035729105483353961044823573210548635400104486357351054893540310448935745105499357441054983574910550335416104502357501055043541710450335753105507357521055063575410550835423104509)
 (.leaf 3575510550935756105510357571055113575810551235760105514354291045153576210551635431104517357631055173543210451835764105518354331045193577410552835441104527357751055293544210452835776105530354431045293577810553235777105531357791055333544710453335783105537357841055383578710554135786105540357881055423578910554335797105551361511065513579810555236152106552358021055563615610655635806105560361601065603580710556136162106562358081055623616310656335811105565361661065663581210556635480104566358131055673581410556835818105572354861045723581910557335486104572358201055743617410657435821105575361761065763582210557635491104577358231055773617710657735824105578358251055793582810558235827105581358311055853618510658535832105586361871065873583310558735834105588358361055903550510459135846105600000000000003584710560136201106601358481056023551410460235849105603000000000003585010560400000000000358511056050000000000035852105612000000000003585410561435853105613358571056173585610561635858105618000000000003585910562100000000000358601056330000000000035861105634000000000003586210563500000000000358631056360000000000035865105638358661056393586710564035529104640358681056410000000000035869105642000000000003587010611500000000000358721061173587110611635873106118355341051183587710612235876106121358801061253623210712635882106127362331071273588310612800000000000358871061323623810713235888106133355481051323589310613835892106137))
 (.node 1 (.leaf 3589410613935895106140358961061413589710614235900106145358991061443590110614636252107146359021061473625310714735904106149362561071503590510615036257107151359061061513625710715135907106152359081061533591010615535911106156359171061623626910716335924106169362751071693592610617135925106170359291061743628010717435930106175362811071753593110617635932106177359351061803628610718035937106182359361061813594110618635940106185359421061873560210518635943106188362941071883594810619335947106192359511061963595010619535954106199359551062003595910620435960106205359611062063631210720635962106207000000000003596310620800000000000359641063090000000000035965106341000000000003596610634200000000000359671063430000000000035971106349359701063483597210635035973106351359741063520000000000035975106353000000000003597610635400000000000359771063550000000000035978106356000000000003597910635700000000000359801063620000000000035981106363000000000003598210636400000000000359831063650000000000035984106366000000000003598610636800000000000359881063700000000000035989106371000000000003599110637335643105373359921063743564410537435994106376000000000003599910638100000000000360001063820000000000036001106383000000000003600210638400000000000360031063880000000000036004106389000000000003600510639000000000000360061064030000000000036007106404000000000003600910640600000000000360101064080000000000036011106409000000000003601210641000000000000)
 (.leaf 3601310641100000000000360141064120000000000036015106414000000000003601610641500000000000360171064160000000000036019106418363481074183602010641936350107420360211064203635010742036025106424360241064233602610642536027106426360281064273635410742736029106428000000000003603310643200000000000360341064333635710743236035106434363591074343603610643536037106436360381064373636310743836040106439360391064383604510644436046106445360471064463637110744636048106447363721074473605010644936049106448360511064503637510745036052106451357031054513605510645436056106455360571064563570710545536061106460357121054603606210646100000000000360691064693606810646836070106470357161054703607110647136072106472360761064763607510647536077106477360781064783607910647936404107479360801064803572710548136081106481357271054813608810648835734105488360901064903573610549036094106494360931064933609610649635742105496361001065003609910649936107106507361061065063610810650836109106509361101065103610910650936113106513357591055133611410651435759105513361151065153576110551536120106520357671055213612410652435770105524361271065273577310552736131106531357771055313613410653435780105534361351065353578110553536136106536357821055363613710653735782105536361381065383578410553836141106541361401065403614210654236143106543361491065493579510554936155106555361541065543615710655736156106556361581065580000000000036159106559361601065603616110656136160106560)))))))))
 (.node 128 (.node 64 (.node 32 (.node 16 (.node 8 (.node 4 (.node 2 (.node 1 (.leaf 3616410656436489107564361671065673649210756736170106570358171055713617110657135817105571361731065733617410657436175106575365001075753617810657836179106579361821065823618110658136184106584365091075843618810658836189106589361951065953619610659636197106597358441055983619910659935845105599362001066003652510760036202106602000000000003620310660300000000000362041066040000000000036205106605000000000003620610661200000000000362071066130000000000036209106615358551056153621010661636531107616362111066173653110761636212106618000000000003621310663300000000000362151066350000000000036217106637365411076383621810663836541107638362191066393654210763936220106640365441076413622110664100000000000362221071160000000000036224107118362231071173622510711936226107120362281071223622710712136229107123365511081233623110712500000000000362341071283623310712736235107129000000000003624410713836243107137362451071393656610813836247107141362461071403625010714435899106144362511071453589910614436255107149365771081493625810715236580108152362591071533626010715436261107155362621071563626310715735913106158362641071583626510715936270107164362711071653627610717036275107169362771071713659810817036278107172359271061723627910717335928106173362821071763628310717736288107182362871071813628910718335938106183362951071893594410618936296107190359451061903629810719236297107191363011071953594910619436302107196359521061973630310719736304107198)
 (.leaf 3630510719936627108199363061072003630710720136308107202366301082023630910720336632108204363131072070000000000036314107208000000000003631610734800000000000363171073490000000000036319107361000000000003632410736635985106367363251073673632610736836328107370363271073693632910737135990106372363301073723633110737336332107374359931063753633310737536334107376363361073783599710637936337107379359981063803633810738036339107381363401073880000000000036341107404000000000003634210740500000000000363431074060000000000036344107410000000000003634510741100000000000363461074150000000000036347107416000000000003634910741900000000000363511074240000000000036352107425000000000003635310742600000000000363551074280000000000036358107433366771084343636010743536678108435363621074373668010843736364107439366821084393636510744036683108440363671074423636610744136368107443366851084423636910744436688108445363701074453668910844636373107448363721074473637610745136053106452363771074523637810745336379107454363801074553638210745736700108457363831074583670210845936384107459367031084603638610746136385107460363871074623606310646236388107463360641064633638910746400000000000363901074653606510646536392107467363911074663639310746836394107469363951074703639410746936396107471363971074723640310747836404107479364081074833608310648336409107484360841064843641110748636086106486364121074873608710648736420107495360951064953642310749836098106498))
 (.node 1 (.leaf 3642510750036424107499364271075023610210650236428107503367461085033643010750536431107506364351075103675210850936436107511361111065113644310751836118106518364451075203612110652136446107521361211065213644710752236122106522364491075243612310652336450107525361251065253645110752636126106526364521075273612610652636453107528361281065283645410752936129106529364561075313645510753036457107532361321065323645810753336777108534364591075343677710853436460107535367781085353646110753600000000000364641075393646310753836466107541364651075403646710754236143106543364681075433646910754436470107545361451065453647110754636146106546364721075473614710654736473107548361481065483647510755036150106550364761075513615110655136477107552361521065523648210755736481107556364831075583648410755936495107570364941075693649610757136497107572364981075733681710857436499107574365001075753650110757636502107577365041075793650510758036506107581365051075803651010758536186106586365161075913619210659236518107593361931065933651910759436837108594365201075953683810859536521107596368391085963652210759736840108597365241075993652510760036526107601000000000003652710761200000000000365291076143652810761336530107615362081066143653210761736531107616365331076180000000000036534107626000000000003653510763200000000000365361076330000000000036537107634362141066343653810763536216106636365391076363621610663636540107637365411076383654310764036867108641)
 (.leaf 3654510811700000000000365471081193654610811836550108122365491081213655210812400000000000365531081250000000000036556108128365551081273655710812900000000000365591081313623710713136563108135365621081343656410813636565108137365671081393688910913836568108140368901091393656910814136892109141365701081423624810714236571108143362491071433657210814436249107143365731081453689610914536574108146368971091463657610814836899109148365811081533690510915436582108154365831081553658710815936588108160365931081653659410816636599108171369221091713660010817236923109172366011081733692410917336602108174366031081753660610817836929109178366101081823660910818136611108183366121081843661410818636613108185366151081873629210718636617108189366161081883662310819536300107194366241081963662510819736626108198366271081993662810820036629108201366311082033695510920436635108207000000000003663610820800000000000366371083480000000000036639108357000000000003664010835800000000000366421083603664110835936644108362366431083613664510836336320107362366461083643664710836536648108366366471083653664910836736650108368366511083693698210936936652108370369831093703665310837136983109370366541083723665510837336657108375366581083763665910837736335107377366601083783699210937936661108379366621083803666410838200000000000366651083850000000000036666108388000000000003666710838900000000000366681084060000000000036669108407000000000003667010840800000000000)))
 (.node 2 (.node 1 (.leaf 3667110841400000000000366721084150000000000036673108428000000000003667410843100000000000366761084333667710843436687108444370241094453669310845036692108449366941084513637510745036695108452370311094523669610845336697108454367051084623704110946236706108463370421094633670710846437043109464367081084653704310946436709108466363911074663671010846736711108468367131084703671210846936714108471370501094713671610847336398107473367171084743639910747436718108475364001074753671910847636401107476367211084783672010847736722108479364041074793672310848036405107480367241084813672510848236726108483367271084843673010848736729108486367311084883641310748836732108489364141074893673310849036415107490367341084913641710749236735108492364171074923673710849436419107494367381084953642110749636739108496364221074973674110849836740108497367421084993642410749936743108500370791095003674410850136426107501367451085023708110950236747108504370821095033674810850537083109504367491085063708510950636750108507370861095073675510851236754108511367561085133643710751236757108514367581085153675910851636440107515367621085193676310852036765108522367641085213676610852336448107523367681085250000000000036769108526367701085273677110852800000000000367721085290000000000036773108530371081095293677410853137110109531367751085323677610853336779108536371151095363678010853736462107537367821085393678110853836783108540000000000003678410854136785108542)
 (.leaf 3678610854336787108544367891085460000000000036790108547367911085483679510855236794108551367961085533679710855436800108557364811075563680110855836802108559368051085623648710756236806108563368071085643681110856836493107568368121085693649410756936813108570364941075693681410857137150109571368151085723681610857336819108576368181085753682010857736821108578368221085793682110857836823108580368241085813682610858336825108582368281085853716510958636829108586371651095863683010858737166109587368311085883716710958836835108592371721095933684110859836523107598368421085990000000000036843108600000000000003684410861200000000000368461086143684510861336847108615371821096153684910861736848108616368501086180000000000036851108619000000000003685210862500000000000368531086260000000000036854108628000000000003685710863100000000000368581086320000000000036859108633371951096333686010863437196109634368611086353719710963536862108636371991096373686310863737199109637368641086383686510863936868109117000000000003686910911800000000000368701091193654610811836871109120000000000003687410912336875109124368761091250000000000036877109126368781091273687910912836878109127368801091293721511013036882109131372161101313688310913237217110132368841091333721711013236885109134372201101353688610913537220110135368871091363722111013636893109142372261101413689410914336895109144368981091473689710914636906109155365831081553690710915636584108156))
 (.node 1 (.leaf 3690810915736909109158369121091613724611016136926109175369251091743693510918436612108184369361091853727011018536938109187369371091863693910918837273110188369441091933694310919236945109194366221081943694610919536947109196369481091973728311019836951109200372861102013695210920136953109202369581092070000000000036959109208000000000003696110934836960109347369621093493663810834936963109350000000000003696410935100000000000369671093540000000000036969109356000000000003697310936036972109359369751093623697410936136976109363369771093643697910936636980109367369811093683698210936936984109371373171103713698510937237317110371369861093733731911037336987109374373201103743698810937537320110374369891093763732211037636990109377369911093783699310938036662108380369941093813699510938236996109385000000000003699710940700000000000369981094080000000000036999109409000000000003700010941000000000000370011094110000000000037002109412000000000003700310941300000000000370041094140000000000037005109424000000000003700610942500000000000370071094260000000000037008109427000000000003700910942800000000000370101094310000000000037013109434366771084343701410943536678108435370151094363668010843737016109437366801084373701710943837018109439370201094413734711044137022109443366861084433702310944437024109445370271094483735411044837028109449373541104483702910945037355110449370331094543703410945537035109456366991084563703810945937366110460)
 (.leaf 3703910946037366110460370401094613704110946237044109465373711104653704610946737045109466370471094683737411046837048109469373751104693704910947037050109471370521094733737811047237054109475370531094743705510947637382110476370561094773738311047737058109479370571094783705910948037060109481370621094833706310948437070109491370691094903707210949336736108493370731094943707410949537076109497370751094963707810949937077109498370801095013740811050237084109505374111105053708810950936752108509370891095103675310851037092109513370911095123709310951437421110515370951095163709410951537096109517367601085173709710951837098109519370991095203709810951937100109521371011095223710210952336767108524371031095243743011052437104109525371051095263710610952700000000000371071095283710810952937114109535371131095343711610953737117109538371181095393711910954037120109541371191095403712110954237122109543371291095503745711055137130109551367941085513713110955237132109553371331095543746011055437134109555374611105553713610955737135109556371411095623714010956137142109563368071085643714310956437144109565371471095683747511056937148109569374751105693714910957037476110570371511095723715010957137152109573371531095743715510957637482110576371561095773748311057737157109578371581095793716110958237160109581371701095913717110959237173109594374991105933717410959537175109596371771095980000000000037178109599000000000003718010961337179109612))))
 (.node 4 (.node 2 (.node 1 (.leaf 3718110961437508110615371851096180000000000037186109624000000000003718710962500000000000371881096260000000000037189109627000000000003719010962837518110628371911096293685510862937192109630368561086303719410963237193109631371981096363752611063637200109638000000000003720110963900000000000372021096400000000000037206110121372051101203720711012237533111122372081101233720911012437212110127368781091273721311012837539111128372141101293754011112937218110133372171101323721911013437220110135372221101373722311013837228110143372271101423722911014437230110145372321101473723311014837234110149372351101503723711015237562111151372381101533723911015437245110160372461101613724711016237574111163372481101633757411116337251110166375771111663725211016737578111167372531101683691910916837254110169375801111693725511017036921109170372561101713692310917237257110172372581101733725911017437586111175372611101763758711117637265110180372641101793726611018137591111180372671101823693310918237272110187375981111873727411018936940109189372751101903760011118937276110191369421091913727711019237602111191372781101933760511119437279110194376051111943728011019537607111196372811101963760811119737284110199376111112003728811020337614111203372891102043761511120437290110205000000000003729211020700000000000372931103470000000000037297110351372961103503729811035236965109352372991103533696610935337301110355373001103543730211035636970109357)
 (.leaf 3730311035736970109357373051103593697210935937306110360376331113603730711036137634111361373081103623763411136137309110363373101103643731211036637311110365373131103673731411036837321110375373201103743732411037836992109379373251103793765311138037326110380373271103813732811038200000000000373291104090000000000037330110410000000000003733111042200000000000373321104230000000000037333110424000000000003733411042500000000000373351104260000000000037336110427000000000003733811043237337110431373401104343701210943337341110435376591114363734211043637659111436373431104373734411043837349110443376661114433735011044437351110445373591104533767711145437360110454370321094533736111045537677111454373621104563767811145537363110457370361094573737011046437371110465373721104663769011146737373110467376911114683738011047437379110473373851104793770211147937386110480377031114803738711048137388110482373891104833738811048237391110485373901104843739211048637064109485373931104873706610948737394110488370671094883739511048937068109489373981104923739711049137400110494373991104933740111049537075109496374021104963740311049737412110506374111105053741511050937414110508374161105103741711051137423110517374241105183742511051900000000000374271105213742611052037428110522374291105233743111052537105109526374321105263710510952637433110527000000000003743411052837108109529374351105293710810952937436110530371091095303743711053137438110532))
 (.node 1 (.leaf 3744111053537442110536374451105393744611054037447110541374461105403744811054237449110543374501105443776711154437451110545374521105463745611055037773111550374581105523713210955337459110553374601105543746311055737780111557374641105583713710955837465110559374661105603746911056337468110562374741105683747511056937479110573374801105743748111057537799111576374891105833749011058437496110590378141115913749711059137498110592375011105953781811159537504110598000000000003750511061200000000000375061106130000000000037507110614000000000003750911061600000000000375101106170000000000037511110618000000000003751211062200000000000375131106230000000000037515110625375141106243751611062637517110627375191106290000000000037522110632375211106313752311063300000000000375241106340000000000037527110637000000000003752811063800000000000375291106390000000000037530111119000000000003753111112000000000000375321111210000000000037535111124375341111233753611112537210110125375371111263784611212537538111127375391111283754111113037542111131375441111333754311113237545111134378551121343754611113537856112135375481111373785811213737549111138378591121383755011113937224110139375511111403722511014037552111141372261101413755411114337553111142375551111443755611114537558111147372331101483755911114837868112147375601111493787111215037561111150375621111513756311115237873112152375641111533756511115437567111156378781121573756811115737878112157)
 (.leaf 3756911115837570111159375751111643788511216437581111170375821111713758311117237894112173375851111743789511217437592111181375911111803759311118237904112183375941111833790411218337595111184372681101833759611118537906112185375971111863790711218637603111192379121121913760411119337605111194376061111953791611219537610111199379211122003761311120237922112201376161112050000000000037617111255000000000003761811125600000000000376241113513762311135037625111352376261113533762911135637628111355376301113573730411035837631111358376321113593763611136337310110364376371113643731011036437638111365376391113663764311137037644111371376511113783796211237837652111379376531113803765411143100000000000376551114323733911043337656111433373391104333765711143437658111435376611114383734511043937668111445376691114463767211144937986112449376741114513767311145037675111452373581104523767611145337677111454376801114573767911145637681111458373641104583768311146037682111459376871114643768811146537692111469376931114703769511147237378110472376961114733737811047237699111476376981114753770011147737383110477377011114783738411047837705111482377041114813771311149038028112491377141114913802811249137716111493377151114923771811149537717111494377191114963772011149737722111499377231115003772911150637728111505377331115103773211150937734111511374181105123773511151237418110512377411115183774011151737742111519000000000003774311152038057112520)))
 (.node 2 (.node 1 (.leaf 3774411152100000000000377451115223774611152337747111524000000000003774811152537749111526377501115270000000000037751111528000000000003775211152900000000000377531115300000000000037754111531000000000003775511153237756111533377581115350000000000037759111536380731125363776011153737443110537377611115383744411053837762111539374441105383776311154037446110540377641115413776511154237771111548377701115473777211154937455110549377761115533777511155237777111554374611105553777811155537462110556377791115563746211055637782111559380961125593778311156038098112561377841115613746711056137787111564374701105643778811156537471110565377891115663779011156737791111568381061125693779211156938107112570377931115703810711257037794111571381091125723779511157238109112572378021115793780311158037807111584374901105843780811158537809111586378111115883812611258937812111589381271125903781311159038128112591378151115923813011259337816111593381311125943782411161200000000000378251116130000000000037826111614000000000003782711161500000000000378281116180000000000037829111621000000000003783011162200000000000378311116230000000000037832111624000000000003783311162500000000000378341116260000000000037835111627000000000003783611162800000000000378371116290000000000037839111631378381116303784011163200000000000378411116330000000000037842112119000000000003784311212000000000000378441121230000000000037847112126378461121253784811212738162113128)
 (.leaf 3784911212838162113128378501121290000000000037853112132378521121313785411213338168113134378621121413786111214037863112142381761131423786411214338177113143378651121443817911314537869112148378681121473787011214937871112150378741121533787511215437879112158375701111593788011215937881112160378841121633788511216437897112176382101131763789911217838212113178379021121813790111218037903112182382171131833790511218438217113183379091121883790811218737910112189382221131883791311219238226113192379141121933822711319337915112194379161121953791711219637918112197379201121993792111220037923112202000000000003792411220300000000000379251122040000000000037926112255000000000003792711225600000000000379331123493762211134937935112351379341123503793711235337936112352379381123543793911235537944112360376331113603794511236137634111361379461123623763511136237947112363382591133643794811236438259113364379491123653795011236637951112367376401113673795211236837953112369379631123793796211237837964112380000000000003796611238200000000000379671124300000000000037968112431382791134303796911243237970112433379711124343828311343437972112435382831134343797311243637974112437379761124393766311144037984112447379851124483798711245038299113450379881124513829911345037989112452383001134513799211245538304113455379931124563830411345537994112457383061134573799511245838306113457379961124593799711246037998112461379971124603799911246237685111462))
 (.node 1 (.leaf 3800011246337686111463380031124663800211246538005112468376911114683800611246938007112470380091124723769411147138010112473383231134743801111247437697111474380131124763801211247538014112477380151124783801711248038018112481380201124833801911248238023112486380221124853802511248838024112487380261124893833711348838027112490380281124913803211249500000000000380331124963834511349638034112497377201114973803511249838346113497380361124993803711250038038112501380391125023804211250538041112504380431125063835411350538045112508383561135073804611250937732111509380471125103773211150938048112511383601135113804911251238050112513380531125163773911151638058112521380571125203805911252237746111523380601125233774611152338061112524377461115233806211252538374113525380631125260000000000038064112527380651125283806711253038066112529380691125323806811253138070112533383821135333807111253400000000000380721125353838311353438074112537000000000003807511253838388113539380761125390000000000038078112541380771125403807911254238080112543380831125463777011154738085112548380841125473808611254938398113549380871125503808811255138091112554384031135543809211255538404113555380931125563840411355538094112557380951125583810311256638104112567381101125733810911257238111112574384231135743811211257538424113575381131125763842511357638114112577384271135783811511257838428113579381161125793811711258038118112581384311135823811911258238431113582)
 (.leaf 3812011258338433113584381211125843812211258538132112595384451135963813711260000000000000381381126010000000000038139112613000000000003814011261900000000000381411126200000000000038142112621000000000003814311262200000000000381441126230000000000038145112624000000000003814611262500000000000381471126260000000000038148112627000000000003814911262800000000000381501126290000000000038151112630000000000003815211263100000000000381531126320000000000038154113120000000000003815511312100000000000381561131220000000000038157113123000000000003815811312400000000000381601131263815911312538161113127381621131283816311312938162113128381651131313816411313038166113132384751141323817411314038483114140381781131443817911314538180113146384891141463818211314838183113149381861131523849511415238187113153381881131543819011315638191113157381971131633819811316438199113165385091141663820011316638509114166382011131673850911416638202113168382031131693820711317338516114173382141131803852211417938215113181385231141803821611318238526114183382191131853852811418538220113186385281141853822411319038534114191382251131913822611319238228113194385381141953822911319538230113196382311131973854111419838236113327000000000003823711334200000000000382391133443792811234438240113345379291123453824111334637930112346382431133483824211334738244113349379321123483824511335037934112350382461133513824711335238248113353382471133523824911335437939112355)))))
 (.node 8 (.node 4 (.node 2 (.node 1 (.leaf 3825011335537939112355382511133563794011235638252113357379411123573825311335837942112358382541133593794311235938255113360385651143603825611336138565114360382571133623856711436238258113363385691143643826011336538570114365382611133663826211336738263113368385731143683826411336938575114370382651133703826611337138274113379382731133783827511338037965112381382761133813827711338238280113431386021144313828111343238603114432382821134333797011243338285113436382841134353828611343737974112437382881134393797711244038291113442379791124423829211344337980112443382931134443829411344538301113452383001134513830211345338623114452383051134563830411345538307113458383061134573830811345938630114459383091134603799711246038310113461383111134623831211346338634114463383131134643800111246438314113465380021124653831511346638638114467383161134673863811446738317113468380041124673831811346938640114469383191134703800811247138321113472383201134713832211347338323113474383241134753864611447538325113476386461144753832711347838326113477383281134793865111448038329113480380181124813833211348338331113482383341134853865611448538338113489386591144883833911349038660114489383421134933866411449338343113494386651144943834411349538666114495383471134983834811349938351113502383521135033835511350638354113505383571135083867911450838362113513386841145133836411351500000000000383671135183805411251738369113520383681135193837011352138057112520)
 (.leaf 3837211352338371113522383731135243869511452438375113526386971145263837611352738377113528383791135303837811352938380113531380681125313838111353238068112531383841135353838511353638387113538383861135373839011354138389113540383911135423871311454238392113543380811125443839311354438081112544383961135473808411254738397113548383981135493840011355138723114552384011135523840211355338406113557387281145573840711355838730114559384081135593809611255938409113560384101135613841111356238099112562384121135633841311356438414113565381021125653841511356638102112565384161135673841711356838421113572384221135733842611357738748114577384291135803875111458038432113583387551145843843411358538756114585384351135863843611358738448113599384491136003845111361200000000000384521136130000000000038453113618000000000003845411361900000000000384561136213845511362038457113622384581136233845911362400000000000384601136250000000000038461113626000000000003846211362700000000000384631136280000000000038464113631000000000003846511363900000000000384661141220000000000038467114123000000000003846911412638468114125384701141273816211312838472114129384711141283847611413338475114132384771141343816711313338478114135381691131353848211413938481114138384861141433880211514438487114144388021151443849111414838490114147384921141493849311415038496114153384971141543849811415538499114156385011141583819311315938502114159385031141603850711416438508114165))
 (.node 1 (.leaf 3851011416738825115167385111141683851211416938513114170385141141713851711417438518114175385241141813852311418038525114182388411151833852911418638844115186385331141903853211418938537114194388531151953854311420000000000000385441143250000000000038545114326000000000003854811434338238113343385501143453854911434438551114346388641153463855311434838552114347385541143493855511435038557114352382471133523855811435338871115353385601143553855911435438561114356388741153563856211435738875115357385631143583887611535838564114359388761153583856611436138565114360385681143633888211536438571114366385721143673858411437938583114378385851143803858611438138592114387000000000003859411440100000000000385951144020000000000038596114403000000000003859711440400000000000385981144050000000000038599114406000000000003860111443038600114429386041144333860311443238605114434382831134343860811443738607114436386091144383828711343838612114441386131144423862411445338945115453386251144543894611545438631114460386321144613863311446238955115463386361144653863711446638641114470386401144693864411447338645114474386491144783864811447738650114479389721154803865311448238652114481386581144873897911548738668114497389901154983866911449838670114499386751145043835211350338676114505383531135043868111451038680114509386861145153836311351438687114516000000000003868811451738366113517386901145193836811351938693114522386941145233869611452538695114524)
 (.leaf 3869811452700000000000387001145293869911452838701114530000000000003870211453138703114532387051145340000000000038706114535000000000003870711453600000000000387081145373902911553738709114538390301155383871011453939031115539387111145403903311554138712114541390331155413871411454338713114542387151145443839411354538716114545390371155453871711454638395113546387191145483871811454738724114553390451155533873111456039053115561387341145633905511556338736114565387351145643873711456639058115566387381145673905911556738739114568390611155693874011456938741114570387431145723874211457138744114573384231135743874511457439066115574387461145753842511357638757114586387561145853875811458738759114588387681145973876911459838770114599387711146003877311461700000000000387741146180000000000038775114619000000000003877711462138776114620387781146223877911462338780114624000000000003878111462500000000000387821146260000000000038783115125000000000003878511512738784115126387861151280000000000038788115130391041161303878911513139105116131387901151323847411413138792115134387911151333879311513539109116135387941151363847911413638798115140000000000003880111514338802115144388031151453911811614438805115147384901141473880611514838807115149388081151503880911515138810115152388091151513881111515339127116153388121151543881311515538817115159391331161593881811516038503114160388191151613850411416138820115162391371161633882111516339137116163)))
 (.node 2 (.node 1 (.leaf 3882311516539139116165388241151663882511516738826115168388271151693883211517439149116175388381151803883711517938839115181388401151823884211518438841115183388461151883884511518738848115190388471151893885011519238851115193388571151990000000000038858115230000000000003886011534238547114342388611153433854711434238862115344385491143443886611534838865115347388671153493886811535038870115352391841163523887311535538872115354388771153593887611535838879115361391941163623888011536239195116363388841153663888511536738886115368388871153693889411537638581114376388981153803889711537938899115381385871143823890011538238587114382389011153833858811438338902115384385891143843890311538538590114385389041153863859111438638905115387389061153883890711538900000000000389081153900000000000038909115399000000000003891111540138910115400389121154023922711640338913115403392271164033891411540439228116404389151154053891611540638917115407000000000003891811540800000000000389191154090000000000038920115428000000000003892211543038921115429389251154333892411543238926115434392441164343892811543638927115435389291154373860711443638930115438389311154393893211544038933115441389391154473861811444738941115449392591164493894211545038943115451389441154523894511545338947115455392641164543895211546039271116461389531154613927111646138958115466386381144673895911546738639114468389621154703896111546938964115472386431144723896511547338643114472)
 (.leaf 3896611547439284116474389701154783896911547738971115479392901164803897711548539294116484389801154883929811648838983115491389821154903898811549638987115495389891154973930711649738993115501393111165013899511550339313116503390001155083931711650739001115509393181165083900311551139321116511390041155123932111651139005115513386831145123900611551439324116514390071155153868511451439008115516393271165173900911551739327116517390101155183932811651839012115520386911145203901311552138692114521390171155253869511452439018115526386971145263902011552839021115529390221155303902111552939023115531390241155323902511553300000000000390261155343934411653439027115535390281155363903411554239353116543390351155433935311654339036115544393551165453904011554839358116548390411155493872011454939042115550390431155513904711555539046115554390491155573905011555839051115559393701165603905411556238733114562390561155643873511456439057115565390581155663906011556839378116568390621155703906311557139064115572393821165723906511557339383116573390671155753906611557439068115576387481145773907011557838749114578390711155793907211558039073115581390741155823907811558639079115587390861155943908511559339087115595387671145963908811559639089115597390921156003909311560139095115603000000000003909711562139096115620390981156223909911562339101116127391001161263910211612839103116129391061161320000000000039110116136391091161353911211613838796115138))
 (.node 1 (.leaf 3911411614039430117140391151161413879911514139116116142388001151423911711614339118116144391191161453943511714539122116148391231161493912511615139126116152391281161540000000000039129116155391301161563913111615739448117158391351161613913611616239140116166391411161673914411617039461117171391451161713914611617239152116178394671171773915411618039471117181391551161813947111718139158116184394741171843916011618639476117186391611161873947611718639162116188394771171873916411619039163116189391661161923948311719339167116193394831171933917211634000000000000391771163453886311534539178116346388631153453917911634739495117347391801163483949511734739181116349391821163503918711635539503117355391911163593950711735939192116360395091173613919811636639199116367392061163743889211537439213116381392121163803921411638239530117382392151163833953011738239216116384392171163853921811638639535117387392191163873953511738739224116400392231163993922511640139545117402392261164023954511740239229116405395481174053923011640639549117406392311164073955011740739232116408000000000003923311640900000000000392351164110000000000039238116428000000000003923911642900000000000392401164303924111643139242116432392431164333924611643639245116435392471164373924811643839249116439392501164403926011645039592117450392611164513926211645239263116453392641164543926811645838949115457392691164593895111545939272116462392711164613927311646338956115464)
 (.leaf 3927611646639275116465392771164673927811646839279116469396111174693928111647139280116470392821164723896311547139283116473392841164743928711647739286116476392881164783928911647939291116481392921164823929711648739628117486393001164903963111748939305116495393041164943930611649639307116497393101165003931111650139316116506396471175053932011651039651117509393291165193932811651839331116521393301165203933311652339015115523393371165273901911552739339116529393381165283934011653039021115529393411165313934211653239350116540000000000003935111654139684117542393521165420000000000039354116544396861175443935911654939691117549393611165513936011655039365116555390461155543936611655639698117556393681165583936911655939374116564393731165633937511656539708117566393801165703971211757039385116575397171175753938711657739386116576393881165783906911557739389116579397211175793939011658039072115580393911165813907411558239392116582397251175833939311658339394116584393951165853907711558539396116586393971165873939811658839730117588393991165893908111558939400116590390821155903940311659339085115593394071165973908911559739408116598390901155983941211660200000000000394131166030000000000039414116620000000000003941511662100000000000394161166220000000000039417117126000000000003941911712839418117127394201171290000000000039421117130000000000003942211713200000000000394241171343942311713339425117135397541181343942611713639756118136))))
 (.node 4 (.node 2 (.node 1 (.leaf 3942711713739756118136394281171383911111613739429117139391131161393943211714239433117143394371171473943811714839439117149391231161493944111715139442117152394461171563944711715739453117163394541171643945511716539456117166394571171673978711816739459117169394601171703946311717339792118172394641171743979411817439468117178397981181783946911717939800118180394731171833980311818339478117188398081181883947911718939809118189394821171923981311819339484117194394851171953948911734139488117340394901173423917411634239491117343391751163433949211734439176116344394931173453982311834539494117346398241183463949611734839495117347394971173493949811735039500117352398291183513950111735339832118354395041173563950311735539505117357398361183583950611735839836118358395081173603983811836039515117367395161173683952011737239204116372395221173743952111737339524117376395231173753952711737939526117378395311173833953211738439534117386395351173873954311740000000000000395441174013987911840239546117403395471174043955111740839885118408395521174093988611840939553117410398861184093955411741139234116410395551174123923611641239556117413000000000003955711741400000000000395661174240000000000039571117429395701174283957411743239573117431395751174333924411643439577117435395761174343957811743639913118436395791174373991411843739581117439392501164403958211744039251116441395831174413958411744239595117453399311184543959711745539932118455)
 (.leaf 3959811745639933118456396021174603960111745939605117463396041174623960611746439274116464396071174653960811746639609117467396081174663961011746839611117469396141174723961311747139615117473396161174743961711747539952118475396191174773961811747639620117478399561184793962311748139624117482396291174873996411848739637117495396361174943963811749639639117497396411174993964211750039644117502399791185023965011750839984118507396571175153999211851539658117516399921185153965911751739660117518396651175233966411752239666117524393341165243966711752539336116526396681175260000000000039669117527396701175283967111752939670117528396721175304000711853039674117532396731175313967711753539345116535396801175383934811653839681117539393491165393968211754039683117541396871175453935511654539688117546396891175473969411755239693117551396971175554003311855639700117558396991175573970411756240039118562397071175653970611756439710117568400451185683971311757139714117572397151175734005011857339718117576397191175773972011757839721117579397241175824005911858239727117585400621185853972811758639729117587397311175894006611858939732117590400661185893973311759139401116591397341175923940211659239735117593394041165943973611759439404116594397401175983940911659939741117599397421176003974611762000000000000397471176210000000000039748117622000000000003975011812839749118127397511181293975211813039757118137400951191373975811813840096119138))
 (.node 1 (.leaf 3975911813940097119139397601181403943111714139762118142397611181413976411814439435117145397671181473976611814639768118148401061191483977111815139770118150397721181523977311815339774118154394451171553977511815539776118156397771181574011511915739778118158401161191583977911815939450117160397841181643978511816539788118168397891181693979011817040128119170397931181734013111917339795118175394661171763979911817940137119179398011181814013911918139807118187398061181863981111819140148119190398121181924015011919239814118194401521191943981511819539816118196398181183400000000000039819118341401571193413982211834439821118343398261183483982711834939830118352398291183513983111835339832118354398341183563983311835539835118357401731193573984311836539514117366398441183664018311936739854118376395231173753985911838139858118380398601183824019711938139862118384398611183833986911839139539117391398731183950000000000039875118397000000000003987611839900000000000398771184000000000000039878118401402181194023988011840340218119402398871184104022511940939888118411402261194103988911841239890118413398911184143989211841539893118416395591174163989411841739560117417398951184180000000000039896118419395611174193989711842039562117420399011184240000000000039902118425395671174253990311842639568117426399041184273956911742739906118429399071184303990911843239908118431399101184333957611743439911118434399121184353991511843839914118437)
 (.leaf 3991611843940256119440399171184403991811844139920118443395861174443993811846139937118460399401184633993911846239941118464402801194643994211846540282119466399431184663960811746639945118468399441184673994611846939612117470399511184743995211847539955118478399541184773995711848039958118481399611184843962611748439963118486399621184853996711849039966118489399681184913963211749039969118492396331174913997111849439970118493399721184953997311849639975118498396401174983998911851239988118511399901185134032811951239991118514403311195153999311851640331119515399941185174033311951739995118518403341195183999611851940334119518399971185203966211752039998118521396631175214000111852440000118523400021185254034111952540003118526403421195264000411852700000000000400061185293967011752840009118532400081185314001211853540011118534400131185363967811753640015118538396791175374001611853940017118540400191185424035811954240020118543403591195434002211854540021118544400231185464002411854740025118548403641195484002611854939691117549400271185504002811855140030118553403701195544003511855840034118557400361185593970111755940038118561400391185624004211856540381119565400431185664004411856740046118569403851195694005111857439716117574400521185754039111957540056118579403951195794005711858040396119580400611185844006211858540063118586400641185874006711859040406119590400681185914040611959040069118592404091195934007511859839739117597)))
 (.node 2 (.node 1 (.leaf 4007611859939742117600400771186004007811860140079118602000000000004008011860300000000000400811186040000000000040082118605000000000004008311862000000000000400841186210000000000040085118622000000000004008611864000000000000400871191270000000000040089119129400881191284009011913000000000000400911191310000000000040092119134000000000004009311913539755118135400981191404043612014040101119143401021191444010511914739766118146401071191490000000000040109119151397701181504011011915240447120151401111191534044912015340112119154401131191554011711915939780118160401181191603978011816040119119161404581201624012011916240121119163401241191664012511916740126119168401271191694013311917540132119174401341191764047312017740141119183000000000004014211918400000000000401441191860000000000040145119187000000000004014911919140480120191401531191953981611819640158119342401571193414015911934339821118343401601193444049312034540161119345404931203454016211934640494120346401631193474016411934840165119349404971203494016611935040499120351401681193524050112035340169119353405021203544017011935440503120355401721193564050412035640174119358401751193594018011936440179119363401811193654018211936640185119369398471183694019411937839856118378402001193844019911938340201119385402021193864020411938839867118389402061193903986811839040210119394398721183944021211939640213119397402141193980000000000040227119411402281194124023511941940234119418)
 (.leaf 4023611942000000000000402371194213989811842140239119423399001184234024011942400000000000402411194250000000000040244119428399051184284024711943140248119432402491194334024811943240250119434402511194354025411943840253119437402551194394058812044040257119441399191184424026211944639924118447402631194473992511844840264119448399261184494026911945339930118453402741194580000000000040279119463402781194624028111946540611120465402831194673994411846740286119470402851194694028711947139948118471402901194743995011847340291119475402921194764029411947840293119477402971194814029811948240306119490403051194894030711949140637120491403101194944031111949540312119496403131194974031411949840313119497403151194993997611849940316119500403171195014031911950340648120502403211195054032011950440325119509406541205084032611951040655120509403271195114065612051040329119513406581205124033511951940334119518403361195204066612052040337119521406671205214033811952240339119523403401195244034111952540343119527406741205284034411952840005118528403451195290000000000040346119530400071185304034711953140007118530403481195320000000000040350119534403491195334035211953640351119535403531195374001411853740354119538406841205384035511953940356119540403571195414035811954240361119545406921205464036211954640693120547403631195474036411954840367119551403661195504036811955240369119553403721195564003211855540374119558407041205584037511955940706120560))
 (.node 1 (.leaf 4037611956040707120561403791195634038011956440382119566403831195674038411956840385119569403861195704038711957140390119574407201205744039311957740394119578404011195854040211958640407119591404061195904041011959440071118594404111195954007311859640412119596400731185964041311959740074118597404141195984074512059940415119599404161196004041811960200000000000404191196030000000000040420119604000000000004042111960500000000000404221196200000000000040423119621000000000004042411964000000000000404261201294042512012840427120130407521211294042812013100000000000404291201320000000000040430120134000000000004043212013640431120135404331201374075812113640438120142407641211424043912014340100119142404401201444010211914440442120146401041191464044312014740770121148404451201494077212115040448120152407741211524045412015840453120157404551201594078212116040456120160407831211614045712016140784121162404671201710000000000040471120175000000000004047212017600000000000404771201810000000000040482120193000000000004048412019540483120194404861201970000000000040487120339000000000004048912034140488120340404901203424080812134240491120343408091213434049212034440810121344404981203504049912035140500120352408181213524050512035740506120358405091203614050812036040511120363405101203624051212036440513120365405161203684018411936840522120374401891193734052712037940526120378405321203844053112038340533120385405341203864054012039240208119392)
 (.leaf 4054112039340209119393405421203944086012139440544120396402131193974054612039840547120399405481204004054712039940552120404402201194044055312040540221119405405551204074087412140840556120408405571204094055912041140558120410405601204124022811941240561120413405621204144056312041540231119415405641204164023111941540565120417402321194164056712041940566120418405681204204088712142140569120421408871214214057112042340572120424405731204250000000000040574120426402421194264057612042840243119427405771204294024511942940579120431405781204304058012043240248119432405811204334024811943240582120434402511194354058312043540251119435405861204384058712043940589120441402581194424059012044240259119443405961204484026511944940597120449402661194504059812045040599120451406001204524026811945240602120454406031204554060612046000000000000406071204614092312146140609120463406081204624061012046440927121465406141204684028411946840615120469402841194684061612047040932121470406171204714093312147140618120472402881194724061912047340288119472406201204744028911947340621120475409371214754062212047640293119477406231204774029311947740626120480406251204794062712048140296119480406321204864063112048540633120487403031194874063412048840304119488406351204894095112148940636120490409521214904063812049240308119492406401204944095712149540644120498409591214974064512049940646120500406521205064096712150540659120513409751215134066112051540978121516))))))
 (.node 16 (.node 8 (.node 4 (.node 2 (.node 1 (.leaf 4066312051740979121517406641205184098012151840665120519409821215204066812052240983121521406711205254067212052640676120530406751205294067712053100000000000406781205324067912053340682120536409981215364068312053740999121537406851205394100112153940686120540410021215404069012054440689120543406911205454069212054640699120553407001205544070312055740704120558407051205594102112155940709120563410241215624071112056540712120566407141205684071512056940717120571410321215704072212057641038121576407241205784072312057740725120579410401215784072612058041042121580407271205814072812058240734120588404041195884073512058940736120590407391205934105512159340741120595407401205944074212059640743120597407461206004041611960040748120602407491206034075012060400000000000407511211230000000000040753121130000000000004075412113141069122131407551211320000000000040756121133000000000004075712113500000000000407661211440000000000040768121146407671211454076912114700000000000407771211554045112015540778121156404531201574077912115740780121158407811211594109712215940786121164407871211654078812116641104122166407911211690000000000040792121170000000000004079412117800000000000407951211790000000000040796121180000000000004080012119540799121194408021211970000000000040803121198000000000004080412133200000000000408061213404080512133940807121341411211223414081212134640493120345408131213474112712234740814121348411281223484081512134941129122349)
 (.leaf 4081612135041130122350408221213564082312135740824121358411381223584083012136440829121363408311213654083212136640834121368405171203694083912137340520120372408421213764052312037540846121380408451213794084812138240529120381408491213834053012038240850121384405311203834085112138540852121386408591213934086012139440861121395405431203954086212139640543120395408631213974054512039740871121405408701214044087212140640554120406408781214124087912141340883121417408821214164088412141840566120418408851214194119912241940889121423408881214224089212142640891121425408931214274057512042740894121428412091224294089712143140898121432408991214334089812143240900121434409011214354090312143740585120437409051214394058712043940907121441409081214424090912144340592120444409101214444059212044440911121445405931204454091312144740595120447409181214524091912145340920121454406031204554092112145500000000000409221214560000000000040925121463409241214624092612146441241122465409281214664092712146540934121472409331214714093512147341249122473409361214744125012247440943121481406281204824094412148241259122483409451214834062812048240946121484406301204844094712148540631120485409481214864126212248640949121487412631224874095012148840951121489409531214914063712049140954121492412671224914095512149340639120493409561214944095712149540960121498409591214974096112149941275122499409621215004127612250040974121512409731215114097712151541291122515))
 (.node 1 (.leaf 4098112151941295122519409861215244098512152340987121525406701205244098812152641301122525409891215274130312252741014121552410131215514101512155340698120552410161215544133012255441022121560413361225604102512156341026121564410311215694103212157041033121571410341215724103512157340719120573410361215744072012057441041121579413551225794104412158241359122583410451215834104612158441049121587410481215864105012158841051121589410571215954137012259441058121596413731225974105912159740743120597410621216004106112159941063121601407471206014106412160241065121603410661216290000000000041067121630000000000004106812213000000000000410701221324106912213141071122133000000000004107212213400000000000410731221350000000000041075122137413901231374107612213840759121137410771221394139112313841079122141407631211414108012214240764121142410831221454076712114541084122146000000000004108512214741086122148410891221514108812215041090122152407741211524109212215440776121154410931221554140912315641094122156414091231564109512215741096122158411051221670000000000041109122195411081221944111012219640801121196411111221974080112119641112122198000000000004111312232400000000000411141223270000000000041115122331000000000004111612233200000000000411191223394111812233841120122340408051213394112412234441123122343411251223454144412334541126122346408111213454113112235141132122352411331223534113412235441136122356414551233564113712235741138122358)
 (.leaf 4114312236341142122362411441223644114512236541150122370408361213704115412237440840121374411551223754084112137541156122376414751233764115712237740843121377411591223794115812237841160122380408451213794116112238141162122382411631223834148312338441164122384414831233844116512238541484123385411661223864148412338541167122387408541213884116812238840854121388411691223894085512138941170122390408561213904117112239140857121391411721223924085812139241175122395411761223964118012240040866121400411831224034086912140341185122405408701214044118612240640873121407411871224074087312140741188122408408741214084118912240940875121409411911224114087712141141196122416411951224154119712241741198122418412001224204088612142041203122423412021224224120412242440890121424412051224250000000000041207122427412061224264120812242841528123429412101224304152912343041211122431412121224324121412243441213122433412161224364090212143641217122437412181224384121912243940906121440412201224404122112244141226122446412271224474123012245041231122451412331224534091912145341234122454412351224554123612245600000000000412371224610000000000041238122462409231214614123912246341558123463412401224644155912346441243122467412421224664124412246841564123469412451224694093112146941246122470409311214694124712247141566123471412481224724156712347241252122476412531224774125612248040942121480412571224814157512348041258122482412591224834126112248541581123486)))
 (.node 2 (.node 1 (.leaf 4126412248841263122487412651224894095112148941266122490415851234904126812249241587123492412691224934158812349341270122494412711224954127312249741272122496412741224984159312349841289122513412881225124129712252141617123522413021225264130112252541304122528416231235284130512252941624123529413061225304162512353041307122531000000000004130812253241309122533413111225354163012353541313122537413121225364131412253841000121538413161225404131712254141318122542413171225414131912254341005121543413201225444100612154441321122545416411235464132212254641641123546413231225474164212354741324122548416441235494132812255241327122551413291225534164912355441331122555416501235554133912256341658123563413401225644165912356441341122565410271215654134212256641343122567413481225724103412157241349122573410341215724135012257441351122575413531225774135412257841363122587413621225864136412258841051121589413651225894105112158941366122590413671225914137112259541370122594413721225964169012359541374122598410601215984137512259941061121599413761226004137712260141380122629000000000004138112263000000000000413821230050000000000041383123128000000000004138412312900000000000413861231324138512313141387123133417041241334138812313400000000000413891231360000000000041392123139417101241404139412314141393123140413951231424171212414241396123143417121241424139712314441082122144413981231454108212214441399123146414001231474140112314841402123149)
 (.leaf 4140312315000000000000414041231514172212415241405123152417221241524140712315441091122153414081231554140912315641411123158414121231594141312316041414123161414181231650000000000041421123194000000000004142312319641422123195414241231974173912419741426123324000000000004142712332500000000000414281233260000000000041429123327000000000004143012332800000000000414311233290000000000041432123331000000000004143312333200000000000414411233424144012334141442123343417571243444144312334441757124344414451233464175812434541447123348414481233494144912335041448123349414501233514145112335241454123355414551233564146312336441462123363414641233654114612236641465123366411471223674146612336741147122367414671233684114812236841468123369411491223694146912337041470123371414721233734115312237341477123378414761233774147812337941792124379414791233804179312438041480123381417941243814148112338241795124382414821233834148312338441486123387414851233864148712338841488123389414891233904149012339141491123392414921233934149312339441174122394414961233974117712239741497123398411781223984149812339941179122399414991234004150012340141501123402411821224024150412340541818124405415051234064181812440541506123407418201244074150712340841820124407415081234094119012241041512123413411931224134151512341641514123415415171234184151812341941523123424415221234234152412342541525123426415261234270000000000041527123428000000000004153012343141212122432))
 (.node 1 (.leaf 4153112343241212122432415341234354121512243541535123436415361234374153812343941537123438415391234404154012344141544123445415451234464154612344741859124447415471234484186012444841548123449412291224494154912345041550123451415511234524123212245241552123453418661244544155312345441554123455415621234674156112346641563123468415641234694156812347341567123472415691234744188112447441571123476418831244764157212347741883124476415731234784125412247841574123479412551224794157612348100000000000415771234824125912248341578123483412601224844157912348441580123485415861234914158512349041592123497415911234964159912350441280122504416011235064160012350541604123509416031235084160712351241608123513416121235174192412451741615123520419271245204161912352441618123523416201235254193212452541621123526416221235274162612353141938124531416271235324193812453141628123533416291235344163212353741631123536416331235380000000000041634123539413151225394163512354000000000000416361235414163712354241638123543419501245434163912354441640123545416471235524195812455141648123553419601245534165412355941966124559416641235694134512256941665123570413461225704166812357341667123572416691235744135112257541670123575413521225764167212357741354122578416731235784135512257941674123579416751235804167612358141988124581416791235844136112258541682123587416811235864168312358841684123589416911235964169012359541692123597413731225974169712360200000000000)
 (.leaf 4169812361800000000000416991236190000000000041700124129000000000004170112413000000000000417051241340000000000041706124135000000000004170712413700000000000417111241414201912514141714124144417131241434171512414542024125146417161241464171712414741721124151420301251524172312415341406123153417241241544172512415541726124156417271241574172912415942037125159417311241614141512316241732124162417331241634173412416442043125165417371241954173612419441738124196420461251964174012419841425123198417411241990000000000041742124323000000000004174312432400000000000417441243280000000000041745124329000000000004174612433300000000000417471243340000000000041748124335414341233354174912433641435123336417521243394175112433841753124340417541243414176112434841760124347417631243504176212434941769124356417681243554177012435741771124358417761243634177512436241777124364420811253644177812436542082125365417791243664208212536541780124367420841253674178112436842084125367417821243694178312437041784124371414711233724178912437641788124375417901243774147512337641791124378417921243794180512439241804124391418061243934149212339341807124394418081243954180912439641810124397418141244014150012340141815124402415021234034181612440341502123403418241244114151012341141828124415418271244144182912441642133125416418301244174151612341741831124418418321244194183712442441836124423418381244254214212542541839124426418401244274184112442800000000000))))
 (.node 4 (.node 2 (.node 1 (.leaf 4184312443141842124430418441244324214612543241845124433415321234334184712443541846124434418491244374153612343741850124438415371234384185112443941537123438418521244404185312444141854124442415421234434185512444341543123444418561244444185712444541863124451418641244524187012446300000000000418711244640000000000041874124467418731244664187512446841876124469418791244724218112547241880124473421821254734188212447541883124476418851244784218612547741886124479421871254784188712448042189125480418881244814219012548141889124482418901244834189112448441892124485418931244864158112348641895124488415831234884189612448941584123489418971244904219812548941898124491421991254904190012449342203125494419011244944190212449541905124498422071254984190812450141907124500419101245034190912450241913124506419121245054191512450841914124507419161245094160312350841917124510416051235104191812451141606123511419191245124160812351341920124513419211245144193312452642235125526419341245274223512552641937124530422391255304193912453242241125532419401245334224212553341942124535422441255354194312453641944124537419451245384224712553841946124539422481255394194712454042250125541419481245414225012554141951124544419501245434195212454542254125545419531245464225412554541954124547419551245484196112455442263125554419621245554226412555541968124561419691245624197212456541660123565419741245674166312356841976124569416631235684197712457041978124571)
 (.leaf 4198012457341667123572419811245744228312557441984124577419851245784199012458341991124584419941245874199312458641995124588419961245894199812459141686123591420011245944230312559442002124595420031245964200412459742305125596420051245984169312359842006124599416951236004200712460042008124601420091246170000000000042010125130000000000004201112513100000000000420121251324170212413142014125134420131251334201512513500000000000420161251380000000000042017125139000000000004201812514042317126140420231251454202212514442028125150417201241504202912515142328126151420321251544203112515342033125155420341251564203812516042338126161420401251624204112516342044125194000000000004204512519542343126195420491251990000000000042053125336420521253354205612533942055125338420571253404205812534142061125344423641263444206712535042066125349420691253524176512435242070125353420711253544207312535642072125355420741253574207512535842078125361423811263614207912536242382126362420801253634238312636342085125368420841253674208612536941783124370420871253704178312437042095125378420941253774209612537941792124379420971253804209812538142099125382417961243834210012538341797124384421011253844210212538542110125393421091253924211112539442413126393421121253954211312539642117125400418131244004212312540642122125405421241254074182012440742125125408418211244084212812541142127125410421311254144213012541342132125415421331254164213612541941833124420))
 (.node 1 (.leaf 4213712542041833124420421411254244214012542342143125426424451264254214412542700000000000421471254334214612543242148125434424511264344214912543542452126435421501254364184812443642152125438421511254374215312543942154125440421551254414185312444142156125442418531244414215712544342158125444421591254454216012544642162125448421631254494216412545041862124450421651254514186412445242166125452418651244534216712545342168125454421731254590000000000042174125465000000000004217512546642176125467421791254704218012547142184125475421831254744218512547642186125477421911254824219212548342197125488418941244874220112549242503126492422021254934250412649342206125497425071264964220912550042208125499422101255014190912450242213125504419111245044221412550541912124505422161255074221512550642218125509422171255084222012551142219125510422211255124222212551342229125520425321265214223212552342535126524422371255284254012652942238125529425401265294224012553142542126531422451255364224612553742249125540425511265404225312554442254125545422551255464255712654642256125547425581265474226112555242260125551422621255534256312655242271125562419691245624227712556841975124568422781255694227912557042280125571425821265714228512557642286125577422921255834229112558242293125584419911245844229512558641993124586422961255874199312458642297125588425991265884229812558942299125590423001255914229912559042301125592419991245924230212559342000124593)
 (.leaf 4230612559742305125596423071255984230812559942309125600000000000004231012560100000000000423111256440000000000042312126132000000000004231412613442313126133423151261354261312713442316126136000000000004231812614100000000000423251261484232612614942327126150000000000004233012615342031125153423311261544263012715442332126155420341251564233312615642034125156423341261574203512515742335126158420371251594233612615942337126160423391261624263812716242340126163423411261644234712619900000000000423481262020000000000042349126203000000000004235012620400000000000423511262050000000000042352126332000000000004236012634042359126339423611263414236212634242367126347423661263464236812634842665127348423691263494206612534942370126350420661253494237112635142068125351423721263524237312635342376126356423771263574238012636042678127361423881263684238712636742389126369426851273684239112637142088125371423931263734239212637242396126376423951263754239912637942398126378424001263804240112638142406126386424071263874240912638942706127389424101263904241112639142414126394424131263934241512639542416126396424181263984211512539842419126399424201264004242512640542424126404424271264074242612640642434126414427321274154243512641542732127415424401264204213812542142444126424427401274234244612642642445126425424471264270000000000042448126431000000000004245012643342449126432424531264364274912743542454126437421511254374245512643842151125437)))
 (.node 2 (.node 1 (.leaf 4245612643942457126440424581264414245912644242461126444424621264454246612644942163125449424741264574247512645842477126466000000000004247812646700000000000424791264680000000000042480126469000000000004248212647100000000000424831264720000000000042484126473000000000004248612647542485126474424871264764278012747642488126477421861254774248912647842187125478424901264794218712547842491126480421891254804249212648142785127481424931264824278612748242494126483424951264844249612648542495126484424971264864249812648742500126489425011264904250812649742801127497425121265014251112650042513126502422111255024251412650342212125503425161265054251512650442517126506428101275064251812650742810127506425191265084221712550842520126509425211265104252212651142815127511425231265124281712751342524126513425251265144253812652742831127527425431265324283612753242544126533428371275334254612653542839127535425471265364284012753642553126542428461275424255412654342847127543425611265504225812554942562126551428551275514256512655442564126553425721265614257112656042573126562425741265634257712656642576126565425791265684287312756942580126569425811265704258412657342585126574425921265814229012558142602126591426011265904260312659242895127591426041265934260512659442608126597429011275974260912659842610126599426111266000000000000042612126616000000000004261512713642614127135426161271370000000000042617127141000000000004261912714342912128143)
 (.leaf 4262112714542914128145426221271464232312614642623127147423241261474262512714942326126149426281271524232912615242629127153429221281534263112715542924128155426321271560000000000042633127157429271281584263412715842635127159426361271604263712716142641127165000000000004264212719500000000000426431271960000000000042644127197429361281974264512719842938128199426461271990000000000042647127205000000000004265112733442354126334426521273354235412633442653127336423571263374265412733742357126337426551273384235812633842656127339429501283394265712734042951128340426581273414295212834142659127342429531283424266312734642662127345426641273474295812834742666127349429601283494266712735042962128351426681273514296212835142669127352429631283524267012735342671127354426731273564267412735742682127365426811273644268612736942685127368426901273734268912737242692127375423951263754269612737942697127380426981273814240112638142701127384427021273854270712739042708127391427111273944271012739342712127395427131273964272112740442424126404427231274064242612640642728127411424311264114273012741342433126413427311274144273212741542733127416424361264164273412741742437126417427351274184243712641742736127419424391264194273712742043032128421427381274214244112642142739127422424421264224274312742642742127425427441274274274512742842746127432000000000004274812743442747127433427511274374304512843742752127438430461284384275312743943046128438))
 (.node 1 (.leaf 4275412744042755127441427561274424305012844242758127444430521284444275912744543053128445427601274464276112744742763127449427621274484276412745042467126450427681274544276912745542772127458427731274594277512746100000000000427761274620000000000042777127472000000000004277812747400000000000427791274754307612847642781127477430771284774278212747843078128478427831274794307812847842784127480430801284804278712748343082128482427921274884279112748742793127489000000000004279712749342798127494428051275014280412750042806127502431031285034280712750343104128504428081275044310412850442809127505431051285054281212750842811127507428131275094281412751042819127515428201275164283812753443134128534428421275384313912853942850127546428491275454285312754942560126549428541275504285512755142858127554428571275534286312755943159128559428721275684287312756942876127572425831265724287712757343173128573428781275744317412857442879127575425861265754288012757643177128577428811275774258912657842882127578428831275794288412758042591126580428851275814259312658242888127584425951265844289112758742598126587428921275884289312758942894127590431901285904289612759242895127591429001275964290112759742904127600000000000004290512761500000000000429071281364290612813542908128137000000000004290912813800000000000429111281424291012814142913128144432081291434291612814742915128146429171281484262412714842919128150426261271504292012815142627127151)
 (.leaf 4292112815242922128153429311281624293212816342935128196000000000004293712819842938128199429391282050000000000042940128206000000000004294712833642946128335429481283374324512933742949128338432461293384295512834442954128343429561283454325312934542957128346432541293464296112835043259129351429641283534326112935342967128356429681283574297912836842978128367429801283694268512736842982128371426881273714298412837342691127374429851283744269112737442987128376426931273764299012837942991128380429931283824269912738242994128383429951283844300112839042708127391430041283934330112939343005128394433031293954300612839543007128396430101283994271612739943012128401427181274014301312840242719127402430151284044301412840343017128406430161284054301812840742724127407430201284094272612740943022128411430211284104302312841242729127412430241284134302512841443030128419433261294184303112842043329129421430331284224274012742343035128424427411274244303812842743037128426430391284284304012842943047128439430461284384304812844043049128441430571284494276212744843058128450427651274514305912845143060128452430611284534306212845443069128461000000000004307012846200000000000430711284630000000000043073128472000000000004307412847400000000000430751284750000000000043079128479433721294794308312848343376129483430871284874308612848643088128488433811294884308912848943090128490430951284954338812949543101128501431001285004310212850243103128503)))))
 (.node 8 (.node 4 (.node 2 (.node 1 (.leaf 4310712850743106128506431081285084310912850943111128511431121285124311712851742822127518431361285364342912953643137128537434301295374314012854043139128539431411285414284512754143142128542428451275414314312854342847127543431441285444284812754443146128546431451285454314712854742851127547431481285484285212754843149128549434431295504315212855243444129551431531285534344612955343154128554431551285554316012856043159128559431611285614286512756143162128562431631285634316412856442868127564431661285664287012756643168128568434611295684316912856943170128570431721285724317312857343175128575431761285764317912857943178128578431801285804347312958043187128587431861285864318812858843189128589431921285924348512959243193128593428971275934319412859442898127594431951285954348712959443196128596431971285974319912859900000000000432001286000000000000043201128622000000000004320412913743203129136432051291380000000000043206129141000000000004320912914443501130144432121291474321112914643213129148432141291494322112915642925128156432221291574292612815743223129158435151301584322412915943225129160432261291614322712916243228129163432291291644323012916500000000000432311291970000000000043232129198000000000004323312919900000000000432341292030000000000043235129205000000000004323612920600000000000432371292070000000000043238129330000000000004324012933242943128332432431293354353313033643244129336435341303374325012934243249129341)
 (.leaf 4325112934343540130343432521293444354213034543258129350435481303514326012935243549130352432631293554355113035443264129356432651293574326812936042971128360432701293624297312836243275129367429771283664327612936843565130368432791293714327812937043281129373432801293724328212937443571130374432831293754298612837543284129376429881283774328512937742988128377432861293784298912837843287129379429911283804329012938242992128381432911293834299512838443292129384432931293854329412938642997128386432951293874329612938843298129390430021283914329912939143002128391433071293994301112840043313129405433121294044331412940643016128405433151294074331612940843323129415430261284154332412941643325129417433271294194332612941843328129420433291294214333012942243034128423433311294234303412842343332129424430361284254333512942743334129426433361294284333712942943339129435433381294344334012943643044128436433431294394334212943843344129440436351304414334512944143635130441433461294424334712944343351129447433521294484335312944943056128448433541294504335512945143356129452430601284524335712945343358129454433601294564306412845643361129457430651284574336212945843066128458433641294600000000000043365129461000000000004336612946243367129463433681294700000000000043370129472000000000004337412948100000000000433771294840000000000043378129485000000000004338012948700000000000433821294890000000000043383129490000000000004338512949200000000000))
 (.node 1 (.leaf 4338612949343093128493433931295004339212949943394129501436701305014339512950243671130502433981295054339712950443399129506431051285054340012950743401129508434071295144311412851443412129519431191285194341412952143415129522434201295274312812852843421129528431281285284343112953843708130539434331295404371013054143434129541437101305414343512954243711130542434361295434371213054343437129544437131305444343812954543145128545434391295464371513054643440129547437151305464344112954843716130547434421295494344312955043445129552434461295534344812955543447129554434491295564372613055743453129560434541295614345512956243456129563434591295664316712856743460129567437351305664346312957043739130570434681295754374413057543469129576437451305764347012957743471129578434721295794374813057943474129581431811285814347512958243476129583434771295844318412858443478129585434791295864348012958743756130587434811295884375613058743483129590431911285914348412959143191128591434861295934376213059343488129595434891295964349012959700000000000434911295980000000000043492129599000000000004349412960300000000000434951301350000000000043497130137434961301364349813013800000000000434991301390000000000043500130143000000000004350513014843504130147435071301500000000000043509130152435081301514351313015643514130157435161301594351513015843517130160435181301614352213019600000000000435231301970000000000043524130203000000000004352513020400000000000)
 (.leaf 4352613020700000000000435271303300000000000043529130332435281303314353213033543533130336435381303414381613134143539130342438171313424354113034443819131344435451303484354613034943547130350438251313504355013035343827131352435521303554382913135443553130356432651293574355713036043267129359435601303634355913036243561130364432721293644356213036543273129365435631303664327312936543564130367432741293664356613036943277129369435671303704327712936943569130372432801293724357313037643851131376435741303774385213137743575130378438531313784357613037943577130380435791303824328912938143580130383435811303844358513038843296129388435871303904358613038943589130392435901303934359813040143309129401435991304024360013040343603130406436021304054360613040943317129409436101304134361113041443612130415436131304164361413041743325129417436151304184332612941843616130419433261294184361713042043618130421436201304234361913042243621130424436221304254362513042843624130427436261304294362713043043628130434000000000004362913043500000000000436301304364390813143643631130437439081314364363313043943632130438436341304404391213144043636130442439131314414363713044343638130444436391304454334912944543640130446433501294464364113044743642130448436431304494364413045043645130451436461304524364713045343925131453436481304544392713145543649130455436501304564365213045843653130459436541304604365513046143656130462000000000004365713046300000000000)))
 (.node 2 (.node 1 (.leaf 4365913047043658130469436601304714336912947143661130472000000000004366313049400000000000436641304954394613149543668130499439501314994366913050043951131500436731305044367213050343674130505439551315044367513050643957131506436761305074367713050843679130510436801305114368313051443682130513436841305154340812951543686130517434101295174369013052143691130522436931305244369213052343699130530434231295304370013053143424129531437011305324342512953243702130533434261295334370313053443427129534437071305384398913153843709130540439921315414371713054843999131548437201305514371913055043721130552440031315524372213055344004131553437251305564372413055543730130561440131315624373213056344014131563437341305654373313056443736130567440181315674374213057343743130574437491305804375013058143751130582440341315834375213058344034131583437531305844375413058543755130586437561305874375713058843758130589437591305904404113159043760130591440411315904376313059443764130595437651305960000000000043767130598000000000004376813059900000000000437691306010000000000043770130602434931296024377113060300000000000437721306100000000000043773130642000000000004377413113600000000000437751311370000000000043776131138000000000004377713113900000000000437781311400000000000043779131144000000000004378113114644062132146437831311484378213114743784131149435061301494378513115043786131151437871311524378813115343792131157435141301574379313115844074132158)
 (.leaf 4379413115943795131160437991311640000000000043800131203000000000004380113120400000000000438021312090000000000043804131329000000000004380713133243806131331438081313334380913133443810131335438111313364381813134344099132342438211313464410213234543822131347441041323474382313134843824131349438281313534382713135243831131356438301313554383413135943555130358438371313624355913036243839131364438381313634384013136544122132365438411313664412213236543842131367441231323664384413136943843131368438451313704412613236943847131372435701303734384813137343570130373438491313744385013137543854131379441361323794385513138043577130380438581313834358113038443859131384438601313854386713139243868131393438741313994359613039943878131403436001304034388113140643880131405438821314074360413040743885131410436071304104388713141243609130412438881314134361113041443889131414438901314154389313141844175132418438941314194389513142043898131423438971314224389913142443900131425439041314294390313142843905131430000000000004390613143100000000000439071314350000000000043909131437439081314364391013143843632130438439151314434391413144243918131446439191314474392013144843642130448439211314494364413045043922131450439231314514393113145943932131460439341314620000000000043941131470439401314694394213147144223132470439431314724394413147343945131494000000000004394713149644232132496439541315034395313150243956131505442401325044395813150743959131508))
 (.node 1 (.leaf 4396013150944244132508439621315114368113051243966131515439671315164396813151743687130518439691315184368713051843971131520439701315194397213152143691130522439801315294369813052943981131530439821315314398413153344270132534439851315344427113253543986131535442721325364399113154044276132540439941315434399313154243997131546437151305464400213155144001131550440061315554400513155444010131559440091315584401213156144011131560440151315644430013256444016131565440171315664402313157244308132572440241315734430913257344025131574443111325754402713157644313132577440281315774431313257744031131580437501305814403313158244032131581440351315844432013258444038131587440371315864403913158844325132589440401315894432513258944045131594443301325944404813159700000000000440491316000000000000044051131602440501316014405213160300000000000440531316060000000000044054131607000000000004405513160800000000000440561316670000000000044057131668000000000004405813202700000000000440591321380000000000044060132139000000000004406113214000000000000440641321484406313214744065132149443431331494406613215044067132151440681321524406713215144070132154437891311544407113215543790131155440721321564379113115644073132157440741321584407613216044075132159440771321614435513316144078132162437981311634408113220400000000000440821322070000000000044083132208000000000004408413220900000000000440861323294380313132844087132330438051313304409113233444090132333)
 (.leaf 4409213233544374133335440951323384409613233944100132343443811333424410513234844388133349441081323514439013335144109132352443911333524411013235344392133353441131323564411213235544114132357438321313574411613235943833131358441251323684412413236744128132371441271323704412913237243846131371441301323734441313337444131132374444131333744413213237544133132376441371323804441913338044138132381438561313814413913238243857131382441411323844386013138544142132385441431323864414513238843864131389441491323924386813139344150132393441511323944415213239544153132396441561323994387513140044157132400438751314004416013240344161132404441631324064416213240544164132407444451334064416513240843883131408441681324114388613141144169132412438861314114417013241344171132414441721324154389013141544173132416438921314174417613241944177132420441781324214389613142144180132423441791324224418113242444182132425441831324264418213242544186132429444691334304418713243044188132431441901324374418913243644191132438444721334384419213243943911131439441931324404391213144044194132441439121314404419513244243914131442441961324434391413144244197132444439161314444419813244543917131445441991324464447913344544200132447444821334484420113244844482133448442021324494448313344944203132450442041324514420513245244206132453442081324554420913245644213132460442141324614421513246244216132463442181324654393613146544219132466439371314664422413247144223132470))))
 (.node 4 (.node 2 (.node 1 (.leaf 4422513247244505133471442261324730000000000044230132477000000000004423313249744232132496442341324984394913149844235132499439501314994423613250043951131500442371325014395213150144238132502445181335024424213250644241132505442431325074452213350644249132513439641315134425213251643967131516442531325174425413251844255132519439701315194425613252044257132521442591325234397413152344260132524439751315244426213252644261132525442651325294397913152844266132530442671325314427313253744553133537442791325434427813254244281132545439961315454428213254644562133546442871325514428613255044295132559442941325584429713256144577133561443011325654430213256644303132567445841335684430413256844020131569443051325694458613357044306132570440221315714430713257144308132572443101325744431113257544316132580445961335804431713258144597133581443211325854460113358544323132587446021335864432413258844603133587443261325904432713259144328132592446091335934433113259500000000000443321325990000000000044334132601443331326004433513260244336132603443371331390000000000044338133140000000000004433913314100000000000443401331460000000000044342133148446171341484434613315244620134151443471331534406913215344348133154000000000004435013315644349133155443511331574462613415744354133160446301341614435713316344358133164443591331950000000000044360133196000000000004436313320800000000000443641332090000000000044365133210000000000004436713332844366133327)
 (.leaf 4436913333044368133329443701333314408813233144372133333443711333324437513333644093132336443761333374409413233744382133343443811333424438513334644386133347443871333484467013434944394133355443931333544439613335744395133356443981333594411513235844400133361443991333604440113336244119132362444041333654440313336444405133366446861343654440613336744687134366444081333694468913436844409133370446901343694441013337144692134371444111333724469413437344412133373446941343734441413337544413133374444151333764413413237744416133377446991343784441813337944419133380444201333814441913338044421133382447031343824442313338444422133383444241333854442513338644426133387441441323874442713338844146132389444281333894414613238944429133390441471323904443013339144148132391444341333954415313239644436133397441541323974443813339944439133400444481334094416713241044450133411444491334104445113341244452133413444531334144473513441444454133415444551334164446113342244460133421444621334234417913242244463133424441821324254446513342644182132425444661334274418413242744467133428441851324284447313343944472133438444761334424447513344144477133443447601344434448013344644479133445444811334474448213344844484133450447671344504448513345144486133452444881334544448913345544493133459444941334604449913346544498133464445001334664478413446744501133467447841344674450213346844220132467445071334734450613347244508133474442271324744450913347544228132475))
 (.node 1 (.leaf 4451013347644229132476445111334770000000000044512133496000000000004451313349700000000000445141334984479713449844515133499447981344994451613350044799134500445191335034451813350244520133504448031345044452513350944245132509445291335134425013251444530133514445311335154453613352044535133519445371335214425713252144539133523445381335224454013352444823134524445421335264454113352544543133527442631325274454413352844264132528445461335304454513352944547133531448311345324454813353244549133533445541335384483713453844555133539448381345394455813354244278132542445591335434484113454244560133544448431345444456513354944848134549445671335514456813355244572133556445711335554457413355844573133557445751335594457613356044579133563448621345634458313356744866134567445851335694486813456944587133571448691345704458813357244872134573445891335734459013357444592133576445911335754459313357744314132578445941335784431413257844606133590448891345904460713359144891134592446081335920000000000044610133594000000000004461113359900000000000446121336000000000000044613133601448931346004461413360200000000000446151341390000000000044616134140000000000004462113415244902135152446221341534490313515344623134154449041351544462413415544349133155446251341564462613415744629134160446301341614463313416400000000000446341341910000000000044635134192000000000004463613419300000000000446371341940000000000044638134195000000000004463913419600000000000)
 (.leaf 4464013419744361133197446411341984436213319844642134199000000000004464313420000000000000446441342010000000000044645134203000000000004464613421100000000000446471342120000000000044651134330446501343294465413433344653134332446561343354465513433444659134338446601343394466213434144661134340446631343424438113334244664134343443811333424466613434544383133344446671343464466813434744673134352446721343514467613435544675134354446791343584467813435744680134359443971333584468113436044399133360446841343634496913536244685134364449711353644469113437044690134369446931343724498013537344696134375449821353754469713437644698134377447001343794498713538044702134381449891353824470413438344703134382447051343844499113538444706134385444251333864470713438644425133386447081343874470913438844711134390447101343894471213439144431133392447131343924471413439344715134394447161343954471813439744435133396447191343984443713339844720134399447211344004472213440144440133401447231344024444113340244724134403447251344044472813440744727134406447291344084444713340844730134409444491334104473113441044449133410447321344114473313441244736134415444551334164474013441944458133419447421344214446013342144743134422444601334214474813442744747134426447491344284503413542744750134429444681334294475113443044752134431447541344370000000000044756134439447551344384475713444044758134441447591344424476013444344761134444447601344434476213444545049135446)))
 (.node 2 (.node 1 (.leaf 4476313444645049135446447641344474476513444844769134452447701344534477113445444772134455447761344594477713446044778134461447791344624478213446544781134464447831344664478413446744785134468450711354684478613446944787134470447881344714507313547044789134472450741354714479013447345075135472447911344744507813547544792134475450781354754479313447645079135476447941344774508013547744795134478000000000004479613447900000000000448001345014479913450044801134502445181335024480213450344803134504448061345074480513450644808134509448071345084480913451044526133510448101345114452713351144811134512445281335124481613451744815134516448171345184453313351744822134523448211345224482513452645111135526448261345274511213552744827134528451141355294483913454045125135540448421345434512813554344844134545445611335454484913455045136135551448521345534485113455244855134556448541345554485713455845143135558448581345594485913456044861134562451471355624486413456544865134566448671345684515413556944870134571451551355704487113457245158135573448791345804516413557944881134582445971335814488213458344599133583448831345844460113358544884134585448851345864488713458844604133588448881345890000000000044890134591000000000004489213459300000000000448941346010000000000044895134602000000000004489613504000000000000448971350410000000000044900135150451841361504490513515545189136155449061351564490713515744908135158449091351594491013516045194136160)
 (.leaf 4491113516145196136162449121351624519613616244915135191000000000004491613519200000000000449171351930000000000044918135195000000000004491913519600000000000449201351970000000000044921135198000000000004492213519945208136199449231352004520913620044924135201000000000004492513520200000000000449271352040000000000044928135206000000000004492913521100000000000449301352120000000000044931135213000000000004493213521400000000000449341353274493313532644935135328452191363284493613532945220136329449371353304522113633044940135333449391353324494113533444655134334449501353434494913534244951135344446651343444495213534544953135346449541353474523813634744955135348446701343494495613534944957135350449611353544467413435344962135355449631353564496613535944965135358449771353704497613536944978135371452621363714498113537445265136374449831353764498413537744990135383452741363834499213538544993135386449941353874527813638744997135390449961353894499813539145281136390450001353934471413439345001135394450021353954500513539845006135399450081354014500913540245012135405447261344054501313540644727134406450171354104501613540945018135411450191354124502013541344734134413450211354144502213541545028135421450271354204503213542545033135426450371354304475213443145039135432000000000004504013543300000000000450431354404504213543945044135441447581344414505013544745051135448450541354514476813445145055135452450561354534505713545445058135455))
 (.node 1 (.leaf 4506113545845062135459450641354614534913646245065135462453491364624506813546545067135464450691354664507013546745072135469453561364694507613547345360136473450771354744536113647445082135479000000000004508313549800000000000450841354994479813449945085135500447991345004508613550144799134500450871355024508813550345091135506453741365054509313550845092135507450991355144509813551345101135516451001355154510213551745387136518451031355184510413551945106135521448191345204510713552245392136523451081355234539313652445109135524453931365244511313552845112135527451161355314483013453145117135532448301345314512013553545405136536451261355410000000000045127135542000000000004512913554445128135543451311355464484513454645132135547451331355484514013555545421136554451411355564542313655645144135559454261365594514513556045146135561451481355634514913556445152135567454341365674515613557145438136571451571355724515813557345160135575448741345754516113557644876134577451621355774544313657645163135578454441365774516513558045447136580451661355814544813658145167135582448801345814516813558345450136583451691355844517013558545171135586000000000004517213558700000000000451731355880000000000045174135589000000000004517513560000000000000451761356010000000000045177136040000000000004517813604100000000000451791360430000000000045180136044000000000004518113614600000000000451871361534490313515345190136156451891361554519113615745192136158)
 (.leaf 4519713616344913135163451981361640000000000045202136190000000000004520313619100000000000452041361930000000000045205136194000000000004520613619700000000000452071361980000000000045210136201000000000004521113620200000000000452121362034492613520345213136204000000000004521513621500000000000452161362160000000000045224136333452231363324522713633645506137336452281363374494413533745229136338449461353394523013633944946135339452331363424494813534145234136343449491353424523513634445515137345452361363454523713634645239136348455181373484524013634945518137348452411363504495713535045242136351449581353514524313635244959135352452441363534496013535345245136354449601353534524613635545525137355452471363564496313535645248136357455261373564525013635945249136358452511363604496713536045252136361449681353614525713636644973135366452581363674497413536745259136368449751353684526013636945539137369452611363704554013737045264136373455421373724526613637545545137375452671363764554513737545268136377455461373764526913637845548137378452711363804527213638145275136384455551373854528013638945559137389452821363914528113639045283136392449991353924528513639445002135395452871363964500313539645288136397450041353974528913639845569137399452901363994500613539945291136400450071354004529213640145009135402452931364024529413640345296136405452951364044530013640945299136408453011364104530213641145305136414450221354154530613641545022135415)))))))
 (.node 32 (.node 16 (.node 8 (.node 4 (.node 2 (.node 1 (.leaf 4531013641945026135419453111364204531213642145315136424450311354244531613642545317136426453181364274531713642645319136428450351354284532113643045036135429453221364314532313643245324136433000000000004532513643800000000000453271364404532613643945328136441450451354424533013644345046135443453321364454533313644645334136447456141374474533513644845616137449453361364494533713645045338136451456191374524533913645245340136453453441364574534513645845352136465453511364644535313646645633137466453541364674563313746645355136468453561364694536213647545643137476453641364774564513747845365136478453661364794536713649800000000000453701365014536913650045371136502453721365034537313650400000000000453781365094565513750845379136510450951355104538013651145096135511453811365124538213651345384136515453831365144538513651645663137516453861365174566513751845388136519456661375194539013652145389136520453971365284539613652745399136530454001365314540113653245679137532454021365334568013753345404136535000000000004540913654000000000000454111365444541013654345413136546456851375464541413654745415136548454161365494541713655045422136555456941375554542513655845426136559454271365604569913756045428136561454291365624543013656345429136562454321365654515013556545433136566451511355664543513656845707137568454391365724571113757245441136574454401365734544213657545159135574454461365794571713757945449136582000000000004545213658500000000000)
 (.leaf 4545313660100000000000454541370430000000000045455137044000000000004545613704500000000000454571370460000000000045458137047000000000004545913714700000000000454611371504546013714945467137156454661371554546813715745469137158454701371594547113716045475137164454761371654547713717900000000000454801371820000000000045481137183451991361834548213718445200136184454831371854520113618545484137186000000000004548513719300000000000454871372034548613720245488137204457511382044548913720545214136205454901372060000000000045491137207000000000004549213720800000000000454931372120000000000045494137213000000000004549513732500000000000454961373264576113832645497137327457621383274549813732845763138328455021373324576713833245503137333457681383334550413733445225136334455051373354577013833545507137337455061373364550813733845509137339455101373404523113634045513137343455121373424551413734445780138345455161373464578213834745517137347455181373484551913734945518137348455201373504578613835145521137351457861383514552213735245787138352455231373534578813835345524137354457891383544553013736045529137359455361373664553513736545537137367458011383664553813736845804138369455431373734580813837345549137379455501373804555413738445555137385455561373864582113838645557137387455581373884556213739245561137391455631373934528413639345564137394452841363934556613739645565137395455671373974556813739845571137401458371384024557213740245294136403))
 (.node 1 (.leaf 4557513740545295136404455771374074557613740645578137408452991364084558013741045845138410455811374114584613841145582137412455831374134558713741745308136417455891374194530913641845590137420455911374214559213742245591137421455931374234531313642245594137424453141364234559513742545596137426455981374284559713742745599137429453201364294560013743045601137431456021374324532313643245603137433456041374344560713744045606137439456081374414532913644245609137442456101374434561113744445612137445456151374484561613744945618137451456191374524562613745945346136459456271374604534713646045628137461453491364624563213746545631137464456341374674563313746645635137468456361374694564013747345641137474456421374754590713847545644137477000000000004564613749900000000000456481375014564713750045649137502459121385024565013750300000000000456611375144592313851445662137515459231385144566413751745665137518456671375204592813851945668137521456691375224567013752345392136523456721375254539413652545673137526459351385264567513752845937138528456781375314567913753245681137534000000000004568213754300000000000456831375440000000000045686137547459471385484568713754845688137549456901375514569113755245692137553456911375524569713755845957138558457021375634570313756445705137566457061375674571213757345711137572457131375740000000000045714137575000000000004571513757600000000000457161375780000000000045718137580000000000004572013758200000000000)
 (.leaf 4572113804500000000000457221380460000000000045723138047000000000004572413804800000000000457271381514572613815045728138152457291381534573113815545986139155457321381564598713915645735138159457341381584573613816045737138161457391381634547413716345740138164457411381654574213817900000000000457461381834574513818245747138184457481381854575013820300000000000457541382074575313820645756138209000000000004575713821000000000000457581382120000000000045759138213000000000004576013832500000000000457651383304576413832945766138331460201393324576913833446021139333457711383364577013833545772138337457731383384577813834345777138342457791383444578013834545785138350460381393504579213835745791138356457931383584604613935845795138360457941383594579913836445533137363458021383674580113836645803138368460571393694580513837046057139369458131383784581413837945819138384460711393834582213838745823138388458251383904582413838945827138392458261383914582813839346081139393458291383944608113939345830138395460831393954583113839645565137395458321383974608613939845833138398460861393984583413839946088139400458351384004583613840145838138403460901394024584013840545839138404458421384074584113840645843138408460961394084584413840945579137409458471384124584813841345851138416455861374164585213841745588137418458531384184558813741845854138419458551384204585713842245591137421458581384234611013942245859138424461111394234586013842545861138426)))
 (.node 2 (.node 1 (.leaf 4586213842745861138426458631384284611513942745864138429461161394284586513843045866138431458681384334586713843245869138434000000000004587113843900000000000458721384404612413944045873138441461241394404587513844345610137443458831384514613513945145884138452461361394524588513845345886138454458881384564562313745645890138458456251374584589113845946144139460458921384604589313846145896138464458951384634589713846545898138466459021384704563713747045905138473459041384724590613847445907138475459091384770000000000045910138500000000000004591113850100000000000459131385030000000000045916138507459151385064591713850846166139509459181385094565613750945920138511456581375114592413851545925138516459271385184592613851745929138520461761395194593013852145669137522459311385224566913752245934138525459351385264594313854400000000000459461385474594513854645949138550461951395494595013855145951138552459521385534595113855245958138559459591385604596013856145959138560459621385634596113856245963138564462101395644596513856645966138567459681385694596913857045970138571462171395714597313857400000000000459741385750000000000045975138579000000000004597613858000000000000459771390480000000000045978139049000000000004597913914800000000000459801391490000000000045981139150457261381504598213915146231140151459831391524598413915345990139159459891391584599113916045737138161459921391614573713816145994139163459931391624599513916445996139165)
 (.leaf 4599813917900000000000459991391804574313818046001139182460001391814600213918346003139184460051391860000000000046006139204000000000004600713920500000000000460081392064575213820546009139207000000000004601013920845755138208460111392094626014020946012139210000000000004601313921100000000000460141392140000000000046015139327000000000004601713932946270140328460181393304627114032946019139331462721403304602213933446275140333460231393354602413933646031139343460301393424603213934445780138345460341393464603513934746037139349457841383494604213935446041139353460431393554629814035646047139359460461393584604813936046049139361460511393634605013936246052139364457981383634605313936545800138365460541393664630814036646055139367463091403674605613936846310140368460591393714631314037146063139375463161403744606413937645810138375460651393774581113837646066139378460671393794606913938146070139382460721393844632514038346074139386460751393874607613938846075139387460771393894633014038846080139392460791393914608213939446336140394460841393964608313939546085139397463401403984608713939946342140400460891394014634314040146092139404460911394034609313940545839138404460941394064634814040646095139407460961394084610013941246101139413461031394154610413941646106139418463601404184610713941946361140419461121394244611113942346113139425461141394264611713942946370140428461181394304611913943146121139433461221394344612313943900000000000))
 (.node 1 (.leaf 4612513944146377140441461261394424587413844246127139443461281394444613013944645879138447461321394484588013844846133139449461341394504614013945645889138457461411394574588913845746147139463458951384634614813946446149139465461511394674615213946846153139469459011384694615413947045903138471461551394714590313847146156139472464081404724615713947346409140473461581394744615913947546160139476000000000004616113947700000000000461631395064616213950546164139507464151405084616513950846415140508461671395104616813951146170139513464211405144617113951445923138514461721395154642314051646173139516464231405164617513951846425140518461771395204617613951946178139521464281405214618013952346179139522461811395244593313852446182139525461831395264618413952745936138527461851395284593713852846186139529464361405294619313954746441140547461971395514619813955246199139553464481405544620413955846453140559462051395594620613956046209139563464561405624621213956646211139565462131395674621413956846222139581000000000004622313960300000000000462241396040000000000046225140047000000000004622614004800000000000462271400490000000000046228140050000000000004623014015046229140149462331401534647814115346235140155462341401544623614015600000000000462371401570000000000046238140158464831411584624214016246241140161462431401630000000000046244140164459961391654624514016545997139166462461401664624714016746250140180462491401794625514020400000000000)
 (.leaf 4625614020500000000000462571402060000000000046258140207000000000004625914020800000000000462611402130000000000046262140214000000000004626314021500000000000462651402170000000000046266140218000000000004626714021900000000000462681402200000000000046273140331462721403304627714033546276140334462781403364652014133546279140337460251393374628514034346030139342462861403444628714034546290140348460361393484629114034946292140350462961403544653814135346297140355462981403564630014035846299140357463011403594630214036046306140364463051403634630714036546551141366463151403734655814137346317140375465601413754631814037646560141375463191403774656114137646320140378460671393794632114037946322140380463231403814656714138246324140382465671413824632614038446327140385463281403864632914038746332140390463311403894633314039146575141390463341403924657714139246338140396465801413954633914039746340140398463461404044634514040346347140405465901414054634914040746350140408463541404124635314041146355140413461021394144635614041446357140415463651404234636414042246366140424466091414244636714042546610141425463681404264661114142646369140427466121414274637114042946613141428463721404304661514143046373140431461191394314637414043246120139432463781404420000000000046379140443466201414424638214044646383140447463841404484638514044946387140451461351394514638914045346390140454463911404554613913945546396140460461441394604639814046246146139462))))
 (.node 4 (.node 2 (.node 1 (.leaf 4640114046546150139466464031404674640414046846414140507464131405064641814051146419140512464271405204666914152046429140522464281405214643014052346672141523464311405244643214052546433140526461831395264643414052746676141527464351405284643614052946437140530000000000004643814053100000000000464391405320000000000046440140546000000000004644214054846441140547464431405494644414055046445140551461961395504644714055346446140552464511405574669014155746452140558464531405594645914056546458140564464601405664669814156546461140567464621405684646614057200000000000464671405780000000000046468140579462201395794647014058100000000000464711410480000000000046472141049000000000004647314105000000000000464741411490000000000046476141151464751411504648014115546717142155464811411564671714215546482141157467191421574648414115946720142158464851411604624014016046486141161462411401614648714116246241140161464881411634672514216346490141165464891411644649114116646492141167464931411770000000000046496141180462511401814649714118146498141182465011411970000000000046504141216467501422164650614121846505141217465071412194650814122046509141221000000000004651014122200000000000465111413260000000000046517141332465161413314652314133846280140338465241413394628114033946525141340462821403404652614134146283140341465271413424628414034246528141343467781423434652914134446530141345465321413474628914034746533141348465341413494653514135046292140350)
 (.leaf 4653914135446789142354465401413554678914235446543141358465421413574654414135946545141360465471413624654614136146548141363467981423634654914136446799142364465501413654680114236646552141367468031423684656214137746563141378465691413844657014138546571141386465721413874657614139146575141390465791413944682914239446581141396468321423974658214139746832142397465831413984658414139946585141400465841413994658814140346587141402465891414044683914240446592141407465911414064659314140846594141409465981414134659714141246599141414466001414154660114141646602141417466071414224660614142146608141423466091414244661714143246616141431466181414334637514043346619141434000000000004662114144346871142442466221414444638014044446626141448466271414494662914145146388140452466301414524638814045246631141453463901404544664414146646402140466466471414694640514046946648141470464061404704664914147146407140471466501414724640914047346651141473469021424734665214147446653141475466551415064665414150546656141507469081425084665714150846658141509466591415104641714051046664141515469161425164666514151646917142517466661415174691814251846667141518466681415194667414152546673141524466751415264692614252646677141528469281425284667914153000000000000466811415484668014154746682141549466831415504668414155146683141550466861415534693614255346689141556466881415554669114155846690141557466921415594645414056046693141560469431425604669414156146944142561))
 (.node 1 (.leaf 4669514156246696141563466971415644694714256446699141566469501425674670014156746701141568467031415704695314257046704141571000000000004670614157846705141577467071415794646914058046708141580467091415814671014160200000000000467111416930000000000046712142048000000000004671514215346961143153467161421544696214315446721142159467201421584672214216046723142161467241421624697014316246726142164467251421634672714216546974143166467281421664672914216746731142169000000000004673214217000000000000467371421784673614217746739142180467381421794674014218146498141182467411421824649914118346742142183000000000004674314218400000000000467441422040000000000046745142211000000000004674614221200000000000467471422130000000000046748142214000000000004674914221500000000000467521422184675114221746753142219470061432194675414222047007143220467551422214700814322146756142222000000000004675714222300000000000467581422250000000000046759142226000000000004676014222700000000000467611422280000000000046770142335467691423344677214233746521141336467731423384652214133746774142339467751423404677614234147033143341467771423424703414334246779142344465301413454678014234546531141346467811423464703814334646782142347467831423484678414234946785142350467871423524653714135246790142355467891423544679214235746791142356467931423584704914335746794142359470511433594680014236547058143366468111423764681014237546812142377470681433764681314237846563141378)
 (.leaf 4681414237946815142380468191423844682014238546821142386468221423874682414238946823142388468251423904708314339146826142391470831433914683114239646832142397468331423984709014339846835142400470911433994683714240246836142401468381424034709514340346841142406468401424054684214240747099143407468431424084684414240946847142412471041434124684814241347104143412468491424144685014241546857142422468561424214686014242546859142424468611424264686214242746864142429468631424284686514243046614141429468661424314712214343046867142432471241434324686814243347125143433468691424344687014243546873142444468721424434687514244646624141446468801424514688114245246882142453466321414544688314245446633141455468861424574663514145746890142461466391414614689314246446894142465468951424664664514146746900142471469011424724690314247400000000000469041424750000000000046906142506469051425054690714250746908142508469091425094691014251046911142511466611415124691214251247169143513469131425134691414251446921142521466701415214692214252246671141522469291425290000000000046930142547000000000004693114254800000000000469321425494693314255046934142551469331425504693814255547192143555469391425564719314355646941142558469401425574694214255947196143559469451425624694414256146949142566472031435664695114256847205143568469521425694720614356946955142577000000000004695614257846705141577469571425790000000000046958142580000000000004696014315200000000000)))
 (.node 2 (.node 1 (.leaf 4696814316047222144160469721431644697114316346973143165472271441654697814317000000000000469811431730000000000046984143176467351421764698814318046987143179469891431814699014318246992143184000000000004699314320300000000000469941432040000000000046995143205000000000004699614320600000000000469971432070000000000046998143211000000000004699914321200000000000470001432130000000000047001143214000000000004700214321500000000000470031432160000000000047005143218000000000004700914322200000000000470101432230000000000047011143224000000000004701214322500000000000470131432260000000000047014143227000000000004701514322800000000000470161432290000000000047017143230000000000004701814323300000000000470201433284701914332747021143329467631423284702414333247023143331470251433334726214433247026143334472631443334702814333647027143335470291433374677114233647030143338472681443384703114333947269144339470361433444703714334547041143349470421433504704314335146786142351470451433534728414435447050143358472881443584705514336347054143362470561433644729514436547057143365472951443654706614337447065143373470691433774706814337647070143378473091443794707114337947072143380470731433814707414338247076143384470771433854707814338647317144387470791433874731814438847082143390470831433914708814339647327144397470921434004709114339947094143402470931434014710014340847339144409471011434094710214341047105143413471041434124710614341446850142415)
 (.leaf 4710714341547108143416471091434174685314241847110143418468531424184711114341946854142419471121434204685514242047117143425471161434244711814342646862142427471211434294712014342847126143434471271434354712914344200000000000471301434430000000000047131143444468721424434713214344546874142445471331434464713414344747135143448468771424484713614344947137143450471381434514737614445147142143455468841424554714314345646885142456471481434614689114246247151143464468941424654715714347046899142470471581434714690114247247159143472471601434734716214350647161143505471631435074716414350847168143512471691435134717614352047177143521471781435224717714352147180143524474151445234718114352546925142525471821435260000000000047186143549471851435484718814355147421144551471891435524719014355347191143554471901435534720714357047440144570472081435714695414257147209143572000000000004721014357700000000000472111435780000000000047212143579000000000004721314360100000000000472141436024695914260247216143604000000000004721814415600000000000472191441574744814515747220144158469661431584722114415946967143159472261441644722514416347229144167469751431674723414417246980143172472401441784698614317847241144179474691451784724214418047243144181472461442040000000000047247144205000000000004724814420600000000000472491442070000000000047250144216000000000004725114421700000000000472521442250000000000047253144226000000000004725414422700000000000))
 (.node 1 (.leaf 4725514422800000000000472561442300000000000047257144236000000000004725814432800000000000472591443294748214532847260144330470221433304726114433147023143331472641443344726314433347266144336472651443354726714433747491145337472731443434749714534347274144344474981453444727514434547038143346472761443464703814334647277144347470391433474727814434847040143348472791443494750214534847280144350470421433504728114435147044143352472821443524728314435347285144355472841443544728614435647511145357472871443574751114535747293144363472921443624729414436447518145364472961443664729714436747298144368475221453684730014437047299144369473011443714752414537047306144376473051443754730714437747532145378473081443784730914437947314144384475371453834731614438647317144387473261443964755014539647328144398475521453984733214440247331144401473331444034709514340347337144407473361444064733814440847339144409473471444174757114541747348144418475721454184734914441947350144420473521444224711314342147356144426473551444254735914442947358144428473611444314758414543047362144432475851454314736314443347587145433473651444354712714343547366144436473671444374736814444300000000000473691444440000000000047371144446473701444454737214444747373144448473801444554738114445647384144459471461434594739314446847155143468473941444694715614346947395144470000000000004739614447100000000000473971444720000000000047398144506000000000004739914450747400144508)
 (.leaf 4740414451247625145512474051445134762714551447406144514471701435144740914451747173143517474101445184763114551847411144519476331455204741214452047633145520474161445244763714552447417144525476381455254741814452600000000000474191445490000000000047422144552476421455524742414455447644145554474261445564742514455547432144562476521455624743414456447435144565474411445714744014457047442144572000000000004744514460247446144603474471446040000000000047449145158000000000004745014515947672146159474531451624745214516147454145163472241441624745514516447225144163474561451654767714616447457145166476791461664745814516747230144168474591451684723114416947460145169474611451704746214517147233144171474651451744723614417447467145176474661451754747114518047470145179474741451830000000000047475145192000000000004747614521600000000000474771452340000000000047478145236000000000004747914530900000000000474801453100000000000047485145331474841453304748714533347486145332474881453344771114633447489145335477111463344749014533647491145337474931453394749214533847501145347475001453464750314534947726146349475041453504772714635047505145351477281463514750614535247729146352475071453534773114635447508145354477321463554750914535547733146356475101453564751114535747517145363475161453624752014536647743146366475211453674774414636747527145373475261453724752914537547528145374475301453764775314637647531145377477531463764753314537947534145380)))))
 (.node 8 (.node 4 (.node 2 (.node 1 (.leaf 4753914538547761146384475401453864754114538747542145388477651463884754314538947544145390475571454034755614540247558145404473341444044755914540547335144405475601454064778414640747561145407475621454084756814541447344144414475751454214735114442147576145422473531444234757814542447354144424475791454254735514442547580145426475811454274758614543247808146431475891454354736414443447590145436475911454374759414544647593145445475951454474759614544847598145450473761444514760214545447379144454476031454554760414545647608145460473851444604761014546247387144462476111454634738814446347613145465473911444664761414546647391144466476151454674739214446747616145468000000000004761714546900000000000476181454700000000000047620145507476191455064762214550947845146509476231455104740214451047628145515476271455144762914551647630145517476321455194785614652047634145521478581465224763514552247859146523476391455490000000000047640145550478631465504765114556147650145560476531455634743314456347654145564478771465644765514556547436144566476561455664743714456747657145567474381445684765814556847882146569476611455714766014557047662145572476631455734766414557400000000000476651456000000000000047666145601474441446014766714560247446144603476691456040000000000047670146020000000000004767114602100000000000476741461610000000000047676146163476751461624768214616947903147170476841461714768314617047685146172474631451724768814617547689146176)
 (.leaf 4769014617747468145177476931461804769214617947694146181474721451814769514618247473145182476961461830000000000047697146188000000000004769814623500000000000476991463090000000000047700146310000000000004770114631100000000000477021463130000000000047703146314000000000004770414632700000000000477091463324748614533247710146333479271473324771214633547930147335477131463364771414633747715146338477141463374771614633947935147340477171463404793514734047723146346477221463454772414634747941147346477341463574773514635847740146363477391463624774214636547743146366477451463684796314736847748146371477471463704775014637347526145372477541463774775314637647756146379479741473794775714638047758146381477591463824797714738247763146386477621463854776414638747765146388477661463894776714639047778146401475541454004778114640447780146403477821464054778314640647789146412475661454124779014641347567145413477921464154756914541547793146416475701454164779414641748013147418477951464184779614641947798146421477971464204779914642247577145423478011464244780014642347802146425478031464264780514642847582145428478101464334758714543347813146436478121464354781414643747815146438478181464464781714644547819146447480361474474782014644848038147449478211464494782214645047823146451475991454514782414645247601145453478251464534760114545347826146454476011454534782814645647604145456478291464574760514545747830146458476061454584783114645947607145459))
 (.node 1 (.leaf 4783214646047609145461478331464614783414646247835146463478341464624783614646447612145464478371464650000000000047838146466000000000004783914646700000000000478401464680000000000047841146469000000000004784314650747842146506478441465084784514650947847146511480611475124784814651247625145512478511465154806414751547852146516480661475174785314651747854146518478571465214807014752147861146548000000000004786214654948075147549478661465530000000000047867146554000000000004787414656147873146560478761465634787714656447879146566480901475664788014656748091147567478811465684788214656947883146570480941475704788414657148094147570478851465724809614757247886146573478871465744788914658300000000000478901466000000000000047891146601481031476014789414660400000000000478951471620000000000047896147163000000000004789814716548108148165478991471664810914816647900147167476801461674790114716847902147169479041471710000000000047905147172000000000004790614717347687146174479091471764791014717747913147180476921461794791414718147915147182479161471830000000000047917147188000000000004791814723600000000000479191472370000000000047920147314000000000004792114732600000000000479251473304792414732947933147338479321473374793414733947935147340479381473434771914634247942147347481541483464794414734948156148348479451473504794614735147949147354477311463544795014735547951147356479561473614816814836047957147362481701483624795814736348170148362)
 (.leaf 4796014736548173148365479621473674817514836747964147369479631473684796514737047746146369479661473714774714637047968147373479671473724797014737547969147374479711473764775214637547972147377481861483784797614738148189148381479801473854819214838447981147386479821473874798514739047986147391479881473934777014639347989147394477721463954799514740047994147399479991474044799814740348000147405480011474064800314740847785146408480071474124800814741348010147415482241484164801114741648225148417480151474204779714642048016147421477971464204801714742248018147423480191474244802014742548021147426478031464264802814743348027147432480301474354802914743448031147436478121464354803214743748033147438480351474464803414744548039147450482551484504804014745148256148451480411474524825714845248042147453482581484534804314745447827146455480441474554782714645548045147456482621484574804614745748047147458480491474604826514846048050147461480511474624805414746500000000000480561475074805514750648057147508480581475094806914752048070147521480711475220000000000048073147524000000000004807414754800000000000480771475510000000000048080147556478691465564808114755747870146557480821475584808314755948087147563482981485634808814756447878146565480921475684809114756748097147573480961475724809814757448308148573480991475754788814657548100147576000000000004810114759900000000000481041476024789214660248105147603478931466034810614760400000000000)))
 (.node 2 (.node 1 (.leaf 4810714816400000000000481101481670000000000048111148168000000000004811214817200000000000481131481730000000000048114148174479071471744811614817648115148175481171481774791014717748119148179481181481784812014818048121148181481251481850000000000048126148186000000000004812714818700000000000481321482370000000000048133148314000000000004813514832748134148326481401483324813914833148143148335481421483344814514833748144148336481481483404793514734048152148344479391473444815314834547940147345481551483474815414834648157148349481561483484815814835048159148351481621483544816114835348163148355481641483564816614835848375149359481671483594837614936048169148361483771493614817114836348378149362481761483684817514836748179148371481781483704818214837448390149374481831483754839114937548184148376483921493764818514837748392149376481911483834839914938348193148385484001493844819414838648402149386481951483874798314738848197148389479841473894820114839348200148392482021483944820314839548205148397479921473974821114840348210148402482121484044799814740348218148410480051474104821914841148006147411482211484134800814741348223148415482241484164822614841848014147419482281484204822714841948229148421484361494204823014842248231148423482341484264844114942548235148427480221474274823614842848023147428482371484294802414742948241148433482401484324824414843648243148435482451484374824614843848247148439000000000004824814844000000000000)
 (.leaf 4824914844400000000000482531484484803714744848254148449482551484504826714846248476149463482681484634826914846448270148507000000000004827114850848058147509482721485094827314851048275148512482761485134828014851748486149516482811485184806814751948282148519482831485204828514852200000000000482861485480000000000048289148551000000000004829014855500000000000482921485574849314955748293148558482941485594829614856148295148560483001485654850114956548301148566483021485674830414856948506149570483071485724850714957148309148574483081485734831214859900000000000483151486024851614960148316148603000000000004831714917300000000000483181491740000000000048319149175485201501754832014917648115148175483211491774832214917848323149179483241491804832714918348124148184483291491854833014918648332149188481291481894833314918948130148190483351491910000000000048336149192000000000004833714919300000000000483381492370000000000048339149311000000000004834014931200000000000483411493130000000000048344149328483431493274834914933348348149332483511493354835014933448353149337485581503374835514933948354149338483561493404814714833948357149341481491483414835814934248150148342483591493434815114834348360149344483611493454836214934648361149345483631493474815414834648364149348483651493494836614935048367149351483681493524815914835148370149354481611483534837114935548164148356483721493564816514835748373149357485791503584837414935848580150359))
 (.node 1 (.leaf 4837914936348584150363483801493644858515036448381149365483821493664838314936748382149366483851493694858915036848386149370485911503704839314937748392149376483941493784839514937948396149380483971493814839814938248399149383484011493854840014938448403149387486081503874840414938848196148388484051493894840614939048407149391482001483924840814939248200148392484091493934820014839248410149394484111493954841214939648204148396484191494034841814940248420149404484211494054842314940748422149406484241494084821714840948426149410484271494114842914941348634150413484301494144822214841448431149415482241484164843214941648433149417484341494184843314941748435149419482271484194843714942148642150421484381494224843914942348445149429484441494284844614943048238148430484511494354824314843548453149437484521494364845414943848455149439484561494400000000000048457149444000000000004846014944748459149446484611494484866615044748462149449484631494504846414945148257148452484671494544825914845448468149455482611484564846914945648261148456484701494574826214845748471149458482631484584847214945948264148459484731494604867915046048474149461000000000004847814950848477149507484791495094868015050848480149510482731485104848314951348276148513484851495154868715051548487149517486891505174848814951848489149519484911495550000000000048492149556482911485564849414955848696150558484951495594869815056048497149561486981505604849914956348500149564)
 (.leaf 4850814957248507149571485101495744871215057448511149575483101485754851214957648311148576485151496004851414959948517149602000000000004851814965100000000000485191501740000000000048521150176487221511764852215017748723151177485231501784852415017948527150182485281501834853015018548328149184485311501864853215018748539150237000000000004854015023800000000000485411503100000000000048542150311000000000004854315031200000000000485441503130000000000048545150324000000000004854615032500000000000485471503264874515132648549150328485481503274855015032948748151329485511503304834614933048553150332485521503314855515033448554150333485611503404856015033948562150341487611513424856515034448564150343485731503524836714935148574150353487711513524857515035448369149353485761503554857715035648586150365487841513654859015036948589150368485921503714859115037048593150372487911513724859815037748597150376486001503794859915037848601150380486021503814860415038348803151384486091503884880615138748610150389488071513884861115039048406149390486121503914861315039248614150393486151503944862415040348623150402486251504044842114940548628150407486271504064862915040848425149409486301504094842514940948632150411484271494114863315041248831151412486351504144883315141448636150415486371504164863915041848640150419486461504254844114942548650150429486491504284865115043048652150431486541504334865315043248658150437486571504364865915043848856151437))))
 (.node 4 (.node 2 (.node 1 (.leaf 4866015043948859151440486611504404885915144048662150441000000000004866415044500000000000486671504484886515144748668150449484631494504866915045048463149450486711504524846614945348673150454488721514544867415045548675150456486761504574867715045848678150459000000000004868115050948680150508486821505104868315051148684150512484821495124869015051848691150519486931505550000000000048694150556488891515564869515055748890151557486971505594869815056048701150563487021505644870415056648502149566487051505674850314956748706150568485041495684870715056948505149569487081505704850614957048710150572489051515724871315057548908151575487141505764890815157548715150577485131495774871615057800000000000487171506000000000000048719150602487181506014872015060300000000000487211511750000000000048724151178489191521784872515117948920152179487261511804872715118148729151183489231521824873015118448529150184487311511854892715218648732151186485321501874873315118748734151188487361511904853615019148737151191487381511924873915119300000000000487401512370000000000048741151238000000000004874215132000000000000487431513210000000000048744151325000000000004875015133148749151330487511513324894015233148752151333489411523324875315133448942152333487551513364875415133548757151338485591503384875815133948948152339487591513404894915234048760151341489501523414876215134348951152342487631513444856415034348766151347485681503474876715134848569150348)
 (.leaf 4877315135448772151353487741513554857715035648775151356487761513574877715135848967152358487781513594877915136048780151361487811513624878215136348972152363487871513684897715236848789151370487881513694879015137148980152371487931513744879215137348794151375489831523744879715137848988152379487981513794898915238048799151380489901523814880015138148991152382488011513824899215238348808151389488071513884880915139048810151391488131513944861515039448814151395486151503944882015140148819151400488211514024901015240148822151403490111524024882315140448824151405488271514084882615140748828151409490181524094882915141048631150410488301514114902115241248832151413490221524134883415141548833151414488401514214884115142248844151425488431514244884915143048848151429488551514364865715043648857151438488561514374885815143948859151440488601514414885915144048861151442486631504424886315144500000000000488661514484886515144748867151449490591524504886815145049059152450488691514514867015045148870151452486721504534887115145349062152453488741514560000000000048877151509488761515084887815151048683150511488801515124868515051348885151517488861515184889215155949081152560488961515634889515156248897151564487021505644889815156548703150565488991515664908715256648901151568489001515674890215156949090152569489031515704890415157148906151573490941525734890715157449095152574489091515764890815157548910151577490991525784891115157800000000000))
 (.node 1 (.leaf 4891215160000000000000489131516010000000000048914151602487181506014891515160300000000000489161516040000000000048917151605000000000004892115218000000000000489221521814911015318148924152183489231521824892515218449113153184489261521854911315318448928152187489291521884893015218948735151189489311521904893215219148933152192489341521934893615232749127153327489371523284912815332848943152334489421523334894515233648944152335489521523434895115234248953152344489541523454895515234648765151346489611523524896015235148963152354489621523534896415235549155153355489651523564915715335748966152357491571533574896915236049161153361489701523614897115236248976152367491671533674897815236948977152368489791523704917015337048985152376489841523754898615237749177153377489871523784917815337848997152388489961523874899815238949189153389489991523904918915338949000152391490011523924900515239649004152395490121524034901115240249013152404492041534044901515240649014152405490171524084901615240749020152411492111534114902415241549025152416490261524174883615141749027152418488371514184902815241948838151419490291524204883915142049030152421490311524224903515242648845151426490391524304903815242949040152431488501514314904315243449042152433490481524394904715243849051152442490501524414905215244348862151443490531524440000000000049054152445000000000004905615244749055152446490571524484924915344949058152449492491534494906015245149250153450)
 (.leaf 4906115245249062152453490631524540000000000049065152509000000000004906615251048879151511490701525144888215151449071152515488831515154907215251648884151516490731525174888615151849074152518490751525194907715255600000000000490781525574926815355749086152565492771535664908815256749087152566490891525684909015256949096152575492851535744909715257649288153577490981525774928815357749100152600000000000004910115260100000000000491021526020000000000049103152603000000000004910415260400000000000491051526050000000000049106152606000000000004910715260700000000000491081526080000000000049109152649000000000004911215318300000000000491151531864911415318549116153187489291521884911715318849118153189491221531970000000000049123153237000000000004912415324000000000000491251532410000000000049129153329493111543284913515333549134153334491431533434895115234249144153344491451533454915115335149150153350491521533524915315335349154153354493371543544915815335849159153359491661533664934815436549173153373489811523724917515337548984152375491761533764898415237549179153379493631543804918015338049181153381491821533824899215238349183153383489931523844918615338649187153387491901533904918915338949193153393490021523934919415339449377154394491951533954937715439449202153402493851544024920315340349385154402492081534084920715340749209153409492101534104921515341549398154415492161534164939915441649217153417493991544164921815341849401154418)))
 (.node 2 (.node 1 (.leaf 4921915341949403154420492201534204940415442149221153421494051544224922215342249406154423492231534234922415342449226153426492251534254923115343149230153430492351534354923415343449236153436492371534374923815343849237153437492391534394924015344049243153443492421534424924415344449245153445492471534474924615344649248153448494311544484925115345100000000000492521534520000000000049254153509000000000004925515351049067152511492561535114906815251249257153512490681525124925915351449258153513492601535154944315451549261153516494441545164926215351749445154517492631535184944615451849264153519492651535204926615354500000000000492671535560000000000049269153558490791525584927015355900000000000492731535624945415456249274153563494551545634927515356449085152564492761535654927715356649279153568494601545684928015356949460154568492831535724928215357149287153576492861535754929015360000000000000492911536010000000000049292153602000000000004929315360300000000000492941536040000000000049295153605000000000004929615360600000000000492971536070000000000049298153649000000000004929915418400000000000493011541864930015418549302154187494781551874930315418849304154189493051541904930615419149308154196000000000004931315433049312154329493151543324931415433149319154336493181543354932415434149141153341493261543434932715434449328154345491451533454933115434849148153348493331543504915015335049334154351493351543524933815435549520155354)
 (.leaf 4933915435649523155357493411543584934215435949344154361493451543624934615436349347154364493491543664953315536749353154370493521543694935815437549357154374493591543764936015437749373154390491891533894938215439949198153398493861544034938515440249390154407493891544064939115440849574155408493921544094957615541049393154410493941544114939715441449580155414494001544174940115441849402154419494031544204940715442449408154425494091544264922515342549410154427492271534274941715443449416154433494181544354941915443649422154439494231544404942515444249242153442494261544434924215344249427154444494281544454942915444600000000000494301544470000000000049432154449000000000004943415446600000000000494351544670000000000049436154468000000000004943815451049437154509494391545114944015451249442154514496231555154944915454500000000000494501545570000000000049452154559000000000004945315456100000000000494561545644963415556449457154565494581545664946515457349464154572494661545744928515357449468154576494671545754946915457749288153577494701545780000000000049471154601000000000004947215460200000000000494731546040000000000049474154607000000000004947515460800000000000494761551850000000000049477155186000000000004947915518849661156188494801551894966215618949481155190494821551914948415519700000000000494851552150000000000049486155216000000000004948715521700000000000494881552190000000000049489155221000000000004949015522200000000000))
 (.node 1 (.leaf 4949115523600000000000494951553294949415532849497155331494961553304950015533449316154333495021553364950315533749504155338493211543384950615534049322154339495081553424932515434249515155349493321543494951615535049695156349495171553514933515435249519155353495201553544952115535549700156354495221553564970215635649524155358495231553574952515535949342154359495261553604952715536149528155362495291553634954115537549540155374495421553764936015437749543155377495441553784954915538349550155384495511553854936915438649553155387493701543874955615539049555155389495621553964956115539549563155397493791543964956415539849380154397495651553994974515639949566155400497451563994956715540149383154400495681554024974715640149572155406495711554054957315540749754156408495751554094975615641049579155413497591564134958515541949403154420495881554224940515442249589155423494061544234959015542449591155425495931554274959215542649595155429494121544294959715543149596155430495991554334959815543249602155436494191544364960415543849421154438496051554394942315444049606155440494231544404960715544149424154441496091554434960815544249610155444497901564444961115544549428154445496121554460000000000049613155461000000000004961415546400000000000496151554660000000000049616155467000000000004961715546800000000000496181555100000000000049619155511496201555124962615551849627155519496281555200000000000049629155545000000000004963015555600000000000)
 (.leaf 4963315555900000000000496351555650000000000049636155566496371555674963815556849639155569496431555734964215557249644155574498201565734964615557649645155575496471555774964815557849649155599000000000004965015560000000000000496511556020000000000049652155604000000000004965315560500000000000496541556060000000000049655155607000000000004965615560800000000000496571556090000000000049658155610000000000004965915618600000000000496601561870000000000049663156190498371571894966415619149665156192496671562150000000000049668156216000000000004966915621700000000000496701562190000000000049671156220000000000004967215622700000000000496731563270000000000049678156332494981553324968115633549680156334496821563364950115533549683156337495031553374968515633949868157340496861563404950715534149687156341495071553414969015634449510155344496931563474969215634649696156350496951563494969815635249699156353497011563554988315735549705156359498871573594970615636049888157360497071563614989015736249708156362498911573634970915636349891157363497181563724953715537149719156373495381553724972015637449539155373497211563754972215637649728156382495481553824972915638349911157383497301563844973115638549737156391495571553914973815639249558155392497391563934955915539349741156395495611553954974215639649561155395497431563974992615739849744156398499271573994974915640349931157403497501564044993215740449751156405495701554044975215640649571155405))))))
 (.node 16 (.node 8 (.node 4 (.node 2 (.node 1 (.leaf 4975315640749935157407497551564094993715740949758156412499411574134976415641849945157417497651564194994715741949766156420495861554204976815642249951157423497691564234977015642449773156427497721564264977515642949774156428497781564324977715643149779156433499601574324978215643649964157436497831564374996515743749784156438496031554374978515643949786156440497921564460000000000049793156460000000000004979415646100000000000497951564620000000000049797156511497961565104979815651249621155513497991565134962115551349800156514498011565154980215651649803156517498061565450000000000049807156556000000000004980815655700000000000498091565584963215555849810156559000000000004981115656400000000000498141565674981315656649815156568500021575694981815657150005157572498191565725000615757349823156576498221565754982415657700000000000498251565780000000000049826156599000000000004982715660000000000000498281566030000000000049829156604000000000004983015660500000000000498311566070000000000049832156608000000000004983315660900000000000498341566100000000000049835157187000000000004983615718800000000000498391571914984015719249842157212000000000004984315721300000000000498451572154984615721649847157217000000000004985015722000000000000498511572210000000000049852157222000000000004985315723200000000000498541572380000000000049855157327000000000004985615732800000000000498571573290000000000049860157332498591573314986115733349679156333)
 (.leaf 4986215733450058158334498631573354986415733649870157342496881563424987315734549691156345498761573484969415634849877157349498781573504987915735149697156351498851573575008215835849898157370498971573694989915737150094158370499001573724971715637149901157373500961583724990215737450098158374499031573755009915837549906157378497241563784991215738449913157385499151573874973415638849916157388497341563884992115739349920157392499241573964992315739549925157397499261573984993015740250126158402499331574055012815840449934157406501301584064993815741050135158411499461574185014215841849948157420501431584194994915742149767156421499501574224995115742349954157426499531574254995515742749772156426499611574334996015743249962157434497801564344996615743849965157437499671574394978615644049968157440499691574414997015744249971157443499721574444979015644449973157445497911564454997615745400000000000499771574550000000000049978157456000000000004997915745700000000000499831574614998215746049984157462000000000004998515750500000000000499871575124998615751149988157513499891575144999115751650191158516499921575175019215851749995157556000000000004999615755700000000000499971575580000000000049998157559000000000004999915756600000000000500001575675019815856650001157568500021575695000415757150203158571500081575755000715757450009157576502081585765001015757700000000000500111575980000000000050012157599000000000005001315760400000000000))
 (.node 1 (.leaf 5001415760500000000000500151576060000000000050016157608000000000005001715760900000000000500181576100000000000050019157611000000000005002015768400000000000500211576990000000000050022158188000000000005002315818950220159189500241581904983815719050027158209000000000005003015821250029158211500311582135023015921350032158214498441572145003315821549846157216500341582160000000000050035158217000000000005003615821849848157218500371582194984915721950042158224000000000005004315822500000000000500441582260000000000050045158227000000000005004715823200000000000500481582330000000000050049158234000000000005005015823500000000000500511582360000000000050052158237000000000005005315832900000000000500551583315005415833050057158333500561583325005915833550060158336500611583374986615733850062158338498671573395006915834549874157346500721583485007115834750073158349502731593495007415835050274159350500751583515007615835250077158353500781583545007915835550279159355500811583575028215935850084158360500851583615008615836249890157362500871583634989115736350091158367498951573675009215836850293159369500951583715009415837050097158373502971593735010115837749905157377501021583785010315837950104158380499081573805010615838250107158383501081583845010915838550111158387503111593875011215838850113158389501191583955011815839450120158396503191593955012115839750320159396501221583985032215939850125158401503241594005012915840550128158404)
 (.leaf 5013215840850333159409501341584105013515841150140158416503401594165014415842050344159420501451584215034615942250146158422503461594225014715842350148158424501511584275015015842650152158428499561574285015315842949957157429501551584314995915743150156158432499601574325015715843350357159433501581584345035815943450159158435503581594345016115843750160158436501621584385036115943750163158439501641584405016515844150166158442501681584444997115744350169158445499741574465017115844700000000000501741584510000000000050177158454501761584535017815845550379159455501791584565018015845750182158459499801574585018315846050385159461501841584615018515846250188158513501871585125019515854400000000000501961585570000000000050197158558000000000005019915856700000000000502001585685039815956850201158569503991595695020615857450205158573502071585750000000000050209158598000000000005021015859900000000000502111586010000000000050212158602000000000005021315860400000000000502141586050000000000050215158606000000000005021615860700000000000502171586090000000000050218158610000000000005021915918800000000000502211591905002515819150222159191500261581925022315919250224159193502261592095022515920850228159211504281602125022915921250428160212502311592145023215921550235159218502341592175023615921950237159220502381592215043716022250239159222500411582235024015922350041158223502421592255024115922450243159226502441592275024815923100000000000)))
 (.node 2 (.node 1 (.leaf 5024915923250046158231502501592335025115923450252159236000000000005025315923700000000000502541593300000000000050258159334504551603345025915933550455160334502601593365045716033650261159337502621593385026715934350067158343502691593455006815834450270159346500701583465027215934850273159349502751593515027415935050276159352500761583525027715935350278159354502831593595028215935850286159362502851593615028715936350088158364502881593645008915836550289159365500901583665029015936650090158366502921593685029315936950294159370504901603695029915937550298159374503011593775010015837650302159378501031583795030315937950304159380503051593815050216038150306159382503071593835030915938550506160385503101593865011015838650312159388505091603885031315938950314159390503161593925011515839150321159397503201593965032315939950322159398503251594015052116040050331159407503301594065033215940850333159409503451594215034615942250352159428503511594275035315942950354159430503591594355035815943450363159439503621594385036415944050365159441503691594455017015844650370159446503711594475037415945050173158450503771594535017615845350378159454505751604545038015945650381159457503891595145018915851450390159515505871605165039115951650588160517503921595175058916051850393159518000000000005039415951900000000000503951595570000000000050396159558000000000005039715956700000000000504041595740000000000050405159597000000000005040615959800000000000)
 (.leaf 5040715959900000000000504081596050000000000050409159606000000000005041015960700000000000504111596080000000000050412159609000000000005041315961000000000000504141596110000000000050415159639000000000005041616018800000000000504171601890000000000050419160191504181601905042016019250224159193504211601935042216019450423160195000000000005042516020950424160208504271602115062716121050429160213504281602125043016021450431160215504341602195043316021850435160220502371592205043616022150638161221504381602235064016122350439160224506411612245044016022550642161225504411602265064216122550442160227506431612265044316022850444160229504461602315024715923050454160333506561613335045816033750659161336504591603385026215933850460160339502631593395046516034450268159344504661603455026815934450467160346504681603475046916034850470160349504731603525067516135250474160353504751603545047616035550679161356504771603565047816035750480160359506821613595048316036250482160361504841603635048516036450486160365506881613655048716036650291159367504881603675048916036850491160370506921613695049516037450494160373504961603755069716137450498160377504971603765049916037850500160379505011603805070416138150503160382507041613815050716038650708161385505171603965051616039550525160404505241604035052616040550328159404505281604075033015940650532160411503351594115053316041250534160413505401604195074316142050542160421507441614215054316042250544160423))
 (.node 1 (.leaf 5054916042850548160427505511604305055016042950554160433505531604325056016043950559160438505631604425036615944250564160443503671594435056516044450368159444505671604465056616044550568160447503721594485056916044850373159449505701604495037315944950571160450507741614515057216045150375159451505731604525077516145250574160453503761594525057716045650381159457505781604575038115945750579160458507811614585058016045950783161460505811604605058216046150584160513505831605125058516051450388159513505861605155078916151650590160519000000000005059116052000000000000505921605560000000000050593160557000000000005059416055800000000000505951605690000000000050596160570505971605715059916057300000000000506001605960000000000050601160597000000000005060216060400000000000506031606050000000000050604160606000000000005060516060700000000000506061606080000000000050607160610000000000005060816061100000000000506091606120000000000050610160636000000000005061116063900000000000506121606810000000000050613160682000000000005061416119100000000000506151611920000000000050616161193508141621925061716119450618161195506191611990000000000050620161200000000000005062116120100000000000506221612020000000000050623161203000000000005062416120700000000000506261612095083216221050630161213506311612145063516121850634161217506361612195084116221950637161220508421622205064416122750849162227506451612285064616122950647161230504451602305064816123150447160232)
 (.leaf 5064916123250650161233506531612365045116023650654161237504521602375065516123800000000000506611613385066016133750662161339504611603405066316134050461160340506661613435046416034350667161344504641603435066816134550874162345506691613465087516234650670161347508771623485067116134850877162348506731613505087916235050676161353506771613545067816135550679161356506811613585088716235850684161361508891623605068516136250891162362506861613635089316236450689161366506901613675069616137350695161372506981613755090416237550699161376509051623765070016137750906162377507011613785090716237850702161379509081623795070316138050909162380507111613885071016138750712161389509171623885071316139050511160390507161613935051416039350717161394505151603945071816139550516160395507211613985072016139750729161406505271604065073016140750529160408507321614095053016040950733161410505311604105073416141150941162412507351614125073616141350738161415507391614165075116142850750161427507531614305075216142950754161431505521604315075616143350553160432507571614345055516043450759161436505571604365076016143750557160436507611614385076216143950764161441505621604415076516144250971162442507661614435097216244350767161444509731624445076816144550975162446507691614465077016144750779161456509851624565078016145750986162457507871615145078616151350788161515507891615165079116151800000000000507921615190000000000050793161520000000000005079416152100000000000))))
 (.node 4 (.node 2 (.node 1 (.leaf 5079516155600000000000507961615570000000000050798161559000000000005079916156900000000000508001615705100316257050801161571000000000005080216157200000000000508031615950000000000050804161596000000000005080516159700000000000508061616050000000000050807161606000000000005080816160700000000000508091616090000000000050810161611508111616125081216163600000000000508131617000000000000050815162193000000000005081616219451015163194508171621955101616319550818162196000000000005081916219700000000000508201621980000000000050821162199000000000005082216220000000000000508231622010000000000050824162202000000000005082516220351024163204508261622040000000000050827162205000000000005082816220600000000000508291622070000000000050833162211508321622105083916221750838162216508401622185103916321950848162226510461632265085016222851048163228508511622295104916322950852162230510511632315085316223151052163232508541622325065016123350855162233506511612345085616223450652161235508611622390000000000050865162336510641633355086716233851067163338508681623395106816333950869162340510681633395087016234150664161341508711623425066516134250872162343508731623445087816234950879162350508801623515108116335250882162353508831623545088416235550885162356508901623615109016336150892162363508931623645089516236651095163366508961623675109616336750897162368506921613695090316237450902162373509111623825091016238150912162383507061613835091316238450707161384)
 (.leaf 5091516238650916162387509191623905091816238950920162391507141613915092916240050723161400509321624035072516140250933162404507261614035093416240550728161405509351624065113516340650936162407507311614085093716240850731161408509381624095093916241050952162423507461614235095716242850956162427509581624295115816342950960162431509591624305096316243451163163434509641624355075816143550965162436509661624375096716243851167163438509701624415117016344150974162445511751634465097616244751176163447509771624485097816244950981162452509821624535098716245851187163458509881624595098916246050990162513000000000005099116251450992162515509951625205099416251950998162556000000000005099916255750797161558510011625590000000000051002162569000000000005100416259400000000000510051625950000000000051006162606000000000005100716260700000000000510091626105101016261151011162612000000000005101216269500000000000510131631920000000000051014163193000000000005101716319600000000000510181631975121416419751019163198510201631995102116320000000000000510221632010000000000051025163205000000000005102816320850830162208510311632115103216321251033163213508351622135103416321450836162214510361632165123016421651037163217512311642175103816321851233164219510501632305105116323151055163235508571622355105616323650858162236510571632375085916223751065163336510641633355106916334051262164339510701633415126416434151071163342512641643415107216334351073163344))
 (.node 1 (.leaf 5107516334651270164347510771633485127116434851080163351512751643525108216335351276164353510831633545108416335551086163357510871633585109216336351286164363510971633685129116436851098163369508981623695109916337050899162370511011633725110216337351104163375512971643745110616337751300164377511121633835111116338251115163386511141633855111816338951117163388511191633905112016339151121163392509221623935112316339450923162394511261633975092716239851128163399509271623985113016340150930162401511311634025093116240251132163403513261644035113316340451327164404511341634055132916440651137163408513321644095113816340950939162410511391634105114016341151143163414511441634155114616341750947162418511611634325116016343151165163436511641634355116616343751360164437511681634395116916344051174163445513681644455117716344851370164447511781634495117916345051183163454513771644545118416345550984162455511851634565098616245751186163457511871634585118916346000000000000511901635060000000000051191163513000000000005119216351400000000000511931635150000000000051194163516000000000005119616352051195163519511971635215099616252151199163556000000000005120016355700000000000512011635585100016255851202163559512031635605120416359400000000000512051636050000000000051206163606512071636075120916360951008162609512101636105140016461051212163612000000000005121316419600000000000512151641980000000000051216164199000000000005121716420300000000000)
 (.leaf 5121816420451023163203512201642065102616320651222164208510291632095122516421151226164212512271642135122616421251228164214510351632155122916421551230164216512351642215123616422251246164232510521632325124716423351248164234512491642355143916523551250164236514401652365125116423751058163238512521642385105916323951253164239512541642405125616424200000000000512611643385145116533751263164340514541653405126516434251456165342512661643435145716534351269164346514601653465127216434951271164348512741643515146516535151277164354512781643555127916435651280164357512811643585128216435951284164361512831643605129216436951291164368512931643705110016337151294164371514851653715129516437251296164373513021643795110716337851304164381511101633815130616438351305164382513071643845111316338451308164385511141633855131016438751116163387513111643885131216438951319164396511251633965132016439751127163398513231644005132216439951324164401511291634005132516440251326164403513281644055151916540551330164407513291644065133116440851522165408513331644105133416441151338164415511451634165134016441751147163418513431644205114916342051346164423511521634235135216442951351164428513541644315135316443051355164432515471654335135616443351162163433513571644345116316343451359164436513601644375136116443851360164437513651644425155716544351369164446513701644475137116444851370164447513721644495137316445051376164453513771644545137816445551569165455)))
 (.node 2 (.node 1 (.leaf 5137916445651570165456513801644575157116545751381164458513821644595138416452051383164519513861645225138716452351388164556000000000005138916455700000000000513901645580000000000051391164559515811655595139216456000000000000513931645940000000000051394164604000000000005139516460500000000000513961646060000000000051397164607000000000005139816460851208163608514011646115159016561151402164612512111636115140316462900000000000514041646630000000000051405165198000000000005140616519900000000000514071652030000000000051408165204000000000005141116520751221164207514131652095141416521051417165213512261642125141816521451419165215514231652195142416522051431165227512411642275143416523051244164230514351652315124516423151437165233514381652345144116523751442165238514431652395144416524051445165241512551642415144616524200000000000514471652430000000000051448165334000000000005145816534451650166344514631653495165516634951464165350516561663505146716535351466165352514681653545166016635451469165355516611663555147016535651280164357514711653575166416635851472165358516641663585147316535951474165360514751653615166716636151477165363516701663645147916536551671166365514811653675167316636751483165369516741663685148416537051676166370514861653725148716537351488165374516801663745148916537551682166376514901653765168216637651491165377516831663775149316537951492165378514961653825130516438251497165383513051643825149816538451690166384)
 (.leaf 5149916538551309164386515001653865130916438651501165387516921663865150216538851312164389515031653895150416539051511165397515121653985151516540151514165400515161654025170716640151518165404517101664045152016540651712166406515211654075171416640851524165410517151664095152516541151335164412515261654125133616441351527165413513371644145153216541851342164419515361654225134516442251539165425513481644255154516543151544165430515461654325173816643251549165435517401664345155016543651742166436515511654375136016443751552165438513621644395155316543951554165440515551654415174716644151556165442515571654435155916544551751166445515601654465175216644651563165449517551664495156416545051565165451515671654535175916645351572165458000000000005157316545900000000000515751655205157416551951576165521513851645215157716552251578165523515791655470000000000051580165558000000000005158416560300000000000515851656040000000000051586165605000000000005158916561051590165611515911656125159216561351593165628000000000005159416562900000000000515951656470000000000051596165658000000000005159716566300000000000515981656760000000000051599165697000000000005160016570200000000000516011662040000000000051602166205000000000005160416620751603166206516061662095141416521051607166210514151652115161216621551613166216516241662275143216522851626166229514331652295162816623151629166232516411662440000000000051646166340518301673405164816634251832167342))
 (.node 1 (.leaf 5165316634751836167346516591663535184216735251662166356518461673565166316635751847167357516681663625185216736251675166369518591673695167816637251679166373516811663755186516737551684166378514921653785168816638251687166381516891663835187316738351691166385518751673855169316638751692166386516941663885187816738851695166389518781673885169616639051505165391516971663915150616539251698166392515071653935170016639451508165394517031663975151016539651705166399517041663985170616640051514165400517081664025170716640151713166407518961674065171616641051899167409517171664115190016741051718166412519021674125172216641651721166415517271664215153516542151729166423515371654235173016642451538165424517331664275173216642651734166428515421654285173716643151736166430517411664355174016643451743166437519271674375174416643851928167438517451664395192916743951746166440519301674405174916644351750166444517531664475193716744751756166450517571664515176616652051765166519517671665215195016752151768166522519511675225176916652300000000000517701665470000000000051771166559000000000005177216656051582165560517731665615158316556151776166593000000000005177716659400000000000517781665950000000000051779166603000000000005178016660400000000000517811666080000000000051783166610000000000005178416661200000000000517851666280000000000051786166676000000000005178716720500000000000517891672075178816720651791167209517921672105179316721151608166211)
 (.leaf 5179416721251609166212517971672155179816721651808167226516221662255181116722951810167228518151672335163016623351817167235516321662355181816723651633166236518191672375163416623751820167238516351662385182216724051823167241518291673390000000000051831167341520231683415183716734752029168347518381673485203116834951841167351520331683515184516735552037168355518481673585203916835751849167359518501673605185116736152043168361518611673715204616837051862167372520471683715186416737451863167373518681673785205416837851869167379516851663795187016738051686166380518711673815205816838251872167382520581683825187416738452061168385518761673865206216838651877167387520631683875187916738952065168389518801673905188116739151885167395517011663955188716739751702166396518881673985207416839851889167399520741683985189116740152077168401518931674035189216740251895167405518941674045189716740752084168408519011674115190016741051903167413517191664135190716741751723166417519111674215172616642051918167428519171674275191916742951735166429519201674305173516642951923167433517391664335192416743451740166434519261674365211316843751931167441521181684425193316744351934167444519391674495212516844951940167450521271684515194116745151942167452519441674545213016845451946167456519471674575194916752000000000000519521675230000000000051953167559000000000005195516756151954167560519571675635177516656351959167592000000000005196016759351961167594)))))
 (.node 8 (.node 4 (.node 2 (.node 1 (.leaf 5196316760100000000000519641676020000000000051965167603000000000005196616760400000000000519671676080000000000051968167609517821666095196916761000000000000519701676110000000000051971167681000000000005197216770300000000000519731682050000000000051975168207519741682065197716820951976168208519791682115197816821051981168213519821682145198316821552169169216519841682165217016921751985168217519861682185198816822051989168221519931682255199216822451994168226518071672255199516822751809167227519961682285218016922751997168229518101672285199816823051812167230520011682335200016823252003168235518161672345200416823652190169237520051682375200616823852011168243518251672435202216834000000000000520241683425220916934152025168343520261683445203016834852216169348520401683585222616935852041168359522271693595204216836000000000000520441683630000000000052048168372522311693715205016837452234169374520511683755223616937652055168379520541683785205616838052241169381520571683815224116938152060168384520591683835206616839052251169391520671683915225216939252068168392522521693925206916839351883167393520701683945207116839552072168396518861673965207316839752074168398520751683995225916939952076168400522591693995207916840352078168402520811684055208216840652083168407520821684065208816841252271169411520891684135227216941252090168414519041674145209216841652091168415520981684225191216742252100168424519141674245210516842952104168428)
 (.leaf 5210616843052291169431521081684325229216943252109168433522921694325211016843452294169434521111684355229516943552112168436522971694375212016844452121168445521261684505212716845152132168456521331684575213416852000000000000521351685210000000000052137168551000000000005213916856152138168560521401685625195616756252141168563523261695625214316856500000000000521451685925214416859152146168593521471685945215016859700000000000521511686010000000000052152168602000000000005215316860900000000000521541686100000000000052155168611000000000005215616866700000000000521571686990000000000052158169205000000000005216016920752159169206521621692095197816821052164169211521631692105216516921251980168212521661692135235417021352167169214523561702155216816921552357170216521721692195217316922052178169225521771692245217916922652180169227521821692295218116922852185169232519991682315218916923652188169235521911692385200616823852192169239520071682395219316924052194169241522031692505201816825052210169342523981703425221116934352399170343522141693465240217034652225169357000000000005222816936300000000000522291693640000000000052233169373524111703735223516937552413170375522371693775241517037752238169378520531683775223916937952054168378522401693805241817038052243169383524211703835224416938452422170384522451693855242317038552248169388524261703885224916938952427170389522541693945243317039552255169395524331703955225716939752436170398))
 (.node 1 (.leaf 5226216940252440170402522641694045244317040552274169414522731694135227516941552091168415522781694185209416841852281169421520971684215228216942252099168423522891694295228816942852290169430524681704305229316943352471170433522961694365229716943752304169444524821704445230516944552483170445523061694465248417044652307169447523081694485231016945052488170450523111694515248817045052316169456000000000005231716945700000000000523181695500000000000052319169551521361685505232016955200000000000523221695540000000000052325169561523241695605233316959252332169591523391695980000000000052340169599000000000005234116960000000000000523421696670000000000052343169685000000000005234416968600000000000523451700390000000000052346170205000000000005234817020752347170206523501702095235117021052353170212523521702115235517021452527171214523591702185236017021952362170221521751692225236617022552365170224523671702265253817122552369170228525401712275237117023052183169230523731702325218616923352378170237523771702365237917023852552171239523801702395255217123952381170240525531712405238217024152383170242523871702465219916924652391170250523921702515239517025452207169254523971702560000000000052401170345525721713455240417035400000000000524071703570000000000052409170371524081703705241617037852577171377524171703795257817137852419170381524181703805242517038752424170386524281703905259017139052430170392525931713935243217039452433170395)
 (.leaf 5243717039952259169399524391704015226016940052442170404526041714045244817041052447170409524491704115227016941052450170412522721694125245117041352612171412524531704155245217041452454170416522761694165245517041752276169416524561704185227716941752457170419522791694195245917042152280169420524601704225246117042352463170425522851694255246917043152470170432524721704345247117043352473170435526351714355247417043652475170437524801704425248117044352485170447526461714465248617044852487170449524891704515265017145052490170452524911704535249417045600000000000524951705500000000000052496170551000000000005249717055252659171552524981705535232116955352500170555000000000005250117056000000000000525021705610000000000052504170563523271695635250517056452667171564525061705655232916956552507170566000000000005251017059000000000000525121705925267617159252513170593523341695935251417059452335169594525151705955233716959652516170596526801715965251717059700000000000525211712085234917020852522171209525231712105252417121152523171210525251712125269217221352526171213525271712145252917121652530171217525351712225270217222352536171223525371712245254117122852707172228525421712295270817222952543171230523701702295254417123152545171232525471712345237517023452548171235523761702355254917123652716172237525501712375271717223852551171238527181722395255417124152383170242525561712435238417024352559171246523881702475256117124852389170248)))
 (.node 2 (.node 1 (.leaf 5256617125352394170253525671712545239617025552570171257000000000005257317137100000000000525801713805257917137952584171384527441723845258517138552745172385525861713865258717138752591171391527511723915259517139552596171396525981713985275817239852600171400525991713995261017141052609171409526141714145277417241452615171415527741724145261617141652775172415526171714175277617241652619171419526181714185262017142052458170420526221714225246117042352624171424524621704245262517142552462170424526271714275246517042752628171428524661704285263117143152632171432526331714335247117043352634171434527941724345263617143652637171437526381714385247617043852639171439528001724405264017144052641171441526421714425280217244252647171447528061724465264817144852649171449526511714515281117245152652171452526531714535265517145500000000000526561715060000000000052657171507000000000005265817155100000000000526601715535281517255252661171554524991705545266217155552663171556526641715610000000000052666171563526671715645266817156552667171564526691715660000000000052670171576000000000005267117158700000000000526731715895250917058952674171590525091705895267517159152511170591526771715935283717259452678171594526791715955268117159700000000000526821716130000000000052683172041000000000005268517220652684172205526871722085268817220952690172211526911722125269317221452527171214526951722165269617221752697172218526981722195270617222752705172226)
 (.leaf 5270917223052867173229527101722315271117223252713172234525461712335271417223552874173236527151722365287517323752725172246527241722455272617224752560171247527271722485256217124952728172249525631712505273217225352565171252527331722545256817125552736172257000000000005273717237700000000000527381723780000000000052746172386529051733865274717238752907173388527481723885290717338852749172389529081733895275017239052751172391527531723935275417239452760172400527591723995276217240252761172401527641724045276317240352769172409527681724085278017242052779172419527811724215262117142152782172422526231714235278517242552784172424527861724265262617142652787172427526261714265278817242852789172429527901724305263017143052791172431527921724325279317243352953173434527961724365295617343752797172437527981724385280117244152802172442528051724455296317344452807172447528061724465280817244852809172449528101724505281117245152812172452526531714535281317245352814172454528161725530000000000052817172554529731735545281817255552974173555528211725580000000000052823172562000000000005282417256352825172564528261725655298217356552827172566000000000005282817257600000000000528291725860000000000052830172587000000000005283317259052832172589528341725915283517259252839172610000000000005284017261100000000000528411726690000000000052842172670000000000005284417320652843173205528461732085268817220952848173210528471732095284917321153005174211))
 (.node 1 (.leaf 5285017321252851173213528521732145285317321552854173216528551732175285817322052699172220528591732215286017322252864173226528631732255286917323152868173230528711732335287217323452885173247528841732465288817325052729172250528911732535273117225252894173256527351722565289617337600000000000528971733770000000000052901173382529001733815290217338352743172383529061733875306117438752909173390530641743905291017339153066174392529121733935291317339452914173395530691743955291517339653069174395529181733995291717339852919173400530741744005292217340352921173402529231734045307717440352924173405529251734065293617341752935173416529401734215293917342052941173422529421734235294617342752945173426529471734285310217442852948173429527891724295294917343052950173431529521734335295317343452954173435529531734345295517343652956173437529571734385311317443952958173439531131744395296017344153116174442529611734425311617444252962173443529631734445296517344652964173445529661734475312217444852967173448531221744485296817344953124174450529711734525312617445252972173453000000000005297517355652819172556529761735575282017255752977173558000000000005297917356200000000000529801735635313817456352984173572000000000005298517358500000000000529871735875298617358652988173588528311725885299017359052989173589529911735915315117459152996173705000000000005299717370600000000000530011742075300017420653002174208530031742095300417421053166175210)
 (.leaf 5300617421253169175213530191742255286317322553020174226531811752255302217422853021174227530251742315302417423053026174232528701732325302717423353028174234530331742395287817324053035174241528791732415303617424252880173242530411742475304017424653042174248528861732485304317424952887173249530441742505288917325153046174252528901732525304717425352892173254530481742545304917425553050174256528951732575305117425753052174258530541743805305317437953055174381532171753805305617438253218175381530571743835322017538353058174384532201753835306317438953226175389530651743915306617439253067174393530681743945307117439753070174396530721743985323517539853073174399532361753995307617440253075174401530781744045307717440353079174405532421754055308517441153084174410530861744125293017341153087174413529311734125308817441452932173413530891744155325117541453092174418530911744175309317441952938173419530951744215309417442053097174423530961744225309817442453261175424531011744275310017442653103174429531041744305310517443152951173432531071744335295117343253110174436532741754375311217443853113174439531141744405311517444153117174443532811754445311917444553281175444531201744465328317544653121174447532841754475312317444953286175449531271744530000000000053128174551000000000005312917455200000000000531301745540000000000053132174556531311745555313317455753134174558531371745620000000000053139174564531401745655314117456653142174567))))
 (.node 4 (.node 2 (.node 1 (.leaf 5314317458300000000000531441745840000000000053145174585000000000005314617458600000000000531491745895314817458853150174590533111755905315617504400000000000531571750450000000000053159175203000000000005316017520452998174204531611752055299917420553162175206533251762055316317520753000174206531651752095332917620953167175211531681752125317017521453335176215531761752205317717522153180175224530181742245318417522853183175227531881752325318717523153189175233531901752345319117523553030174236531921752365335717623753193175237533571762375319517523953034174240531971752415319817524253201175245530381742445320317524753202175246532041752485336817624853205175249533691762495320617525053370176250532071752515304517425153208175252533721762525320917525353210175254532111752555337517625553212175256532131752575321517525900000000000532221753855322317538653224175387533891763875322817539153229175392532301753935339517639353231175394533961763945323417539753399176397532441754075324317540653245175408534101764085324717541053246175409532481754115341317641153249175412534141764125325017541353415176413532541754175325317541653255175418534191764175325617541953421176419532571754205309417442053258175421534221764205326217542553261175424532631754265309917442553266175429532651754285326817543153106174432532701754335310817443453271175434531091744355327217543553438176436532731754365343917643753277175440534411764395328017544353445176443)
 (.leaf 5328217544553446176444532851754485345017644853288175451000000000005328917555200000000000532911755560000000000053292175557531341745585329317555853294175559532971755620000000000053298175563000000000005329917556400000000000533011755665330217556753310175589533091755885331417559353315175594533171756150000000000053318175616000000000005331917561700000000000533201760440000000000053321176045000000000005332617620653325176205533271762075316417520853328176208534961772085333117621153332176212533341762145350317721553336176216531711752155333717621753338176218533391762195334017622053342176222533431762235334417622453512177224533451762255351317722553351176231533501762305335217623253521177233533531762335352117723353354176234535231772355335617623653524177236533581762385352617723853359176239535261772385336017624053196175240533611762415336217624253363176243533641762445336517624553533177245533661762465353417724653367176247535351772475337317625353541177253533741762545354317725553376176256535441772565337717625753544177256533791762590000000000053380176374000000000005338517638353220175383533861763845322117538453387176385535561773865339017638853557177387533911763895322617538953397176395535641773945341117640953578177408534181764165341717641553420176418534191764175342517642353593177423534281764265342717642553431176429534301764285343517643353434176432534421764405361017744053443176441536111774415344717644553446176444))
 (.node 1 (.leaf 5345217645000000000000534531765560000000000053454176557000000000005345517655853622177557534561765595345717656053458176561532961755615346017656300000000000534611765650000000000053462176566000000000005346317656753633177568534641765680000000000053465176578000000000005346617657900000000000534691765820000000000053470176583533041755835347117658453305175584534721765855330517558453475176588534741765875347617658953477176590534781765915331317559253479176592534801765935348217659553483176596534841766090000000000053485176610000000000005348617661500000000000534871767060000000000053488177200000000000005349217720453491177203534931772055332517620553494177206534951772075349917721153679178211535001772125368017821253501177213535021772145350917722153510177222535161772285351517722753517177229533481762285351817723053699178231535191772315369917823153520177232537001782325352817724053527177239535291772415370817824053530177242533621762425353117724353711178243535321772445353317724553537177249537181782505353917725153719178251535421772545354317725553545177257533781762585355017738053549177379535511773815373117838153552177382533841763825355317738353733178383535541773845373417838453558177388535571773875355917738953740178390535601773905374017839053561177391537411783915357217740253571177401535761774065340817640653580177410535791774095359417742453426176424535981774285343017642853599177429534321764305360017743053432176430)
 (.leaf 5360217743253434176432536031774335343617643453605177435536061774365361417744453615177445536181774480000000000053619177449000000000005362017755400000000000536211775550000000000053624177559534571765605362517756053626177561536271775625345917656253628177563536291775645363017756500000000000536311775660000000000053632177567000000000005363417756900000000000536361775795363517757853637177580534671765805363817758153468176581536411775845364017758353642177585538201785855364317758653820178585536441775875382117858653645177588538231785885364617758953647177590536481775915382617859153649177592536501775935365117759453481176594536521775955383117859653653177596534831765965365417759700000000000536551776010000000000053657177608000000000005365817760900000000000536591776100000000000053660177614000000000005366117761500000000000536621776160000000000053663177617000000000005366417766900000000000536651777050000000000053666177706000000000005366717819900000000000536691782015348917720153670178202534901772025367217820453671178203536731782055367417820653675178207536761782085368117821353862179213536821782145386317921453684178216538661792175368517821753866179217536871782195368817822053690178222536911782235369617822853695178227536971782295387817922953698178230538791792305370117823353882179233537071782395370617823853709178241537081782405371017824253892179243537121782445389317924453713178245538951792465371717824953898179249)))
 (.node 2 (.node 1 (.leaf 5372017825253719178251537221782545390417925553723178255539051792565372617825853727178259537281783780000000000053729178379535491773795373017838053914179380537321783825391617938253738178388537371783875373917838953740178390537421783925392617939253748178398537471783975374917839953568177398537531784035375217840253754178404535741774045375617840653575177405537571784075357717740753763178413537621784125377117842153591177421537721784225359217742253773178423535921774225377417842453593177423537751784255359517742553778178428537771784275378017843053779178429537811784315360117743153783178433536041774345378717843753608177438537881784385378917843953794178444539791794455379717844700000000000537981785540000000000053799178555000000000005380017855800000000000538011785595362317755853802178560536261775615380317856153804178562538071785650000000000053809178567000000000005381017856800000000000538111785690000000000053812178577000000000005381317857853635177578538141785795399317957953815178580539951795815381617858153817178582538221785875382117858653827178592540071795935382917859453830178595538321785970000000000053833178600000000000005383417860100000000000538351786025365617760253836178603540141796035383717860453838178605538391786060000000000053840178607000000000005384117860800000000000538421786090000000000053843178614000000000005384417861500000000000538451786160000000000053846178628000000000005384717870600000000000)
 (.leaf 5384917920053848179199538521792035367117820353853179204538541792055385517920653856179207538581792095385917921053861179212538621792135386717921854049180219538681792195386917922053875179226538761792275387717922854058180228538811792325406318023353884179235540651802355388917924054069180239538901792415407118024153891179242540731802435389417924554076180246539011792525408218025253903179254540841802545390617925754087180257539071792585390817925953909179260000000000005391017937200000000000539111793730000000000053917179383539161793825392017938653735178385539211793875373617838653922179388539231793895393517940153934179400539391794055393817940453940179406537551784055394117940753942179408539431794095394217940853946179412537611784115394817941453947179413539511794175376617841653952179418537681784185395817942454141180425539591794255396017942653961179427539601794265396417943053963179429539651794315396617943253967179433537841784345396817943453784178434539691794355378517843553970179436541531804375397117943754154180438539721794385397317943953980179446000000000005398117955800000000000539821795595416318055953983179560539841795615398917956653990179567539911795770000000000053994179580541761805805399817958453997179583539991795855382017858554000179586538211785865400117958754183180587540031795895400217958854008179594541901805945400917959500000000000540101795990000000000054011179600000000000005401217960100000000000))
 (.node 1 (.leaf 5401317960200000000000540151796040000000000054016179605000000000005401717960600000000000540181796070000000000054019179608000000000005402017961400000000000540211796150000000000054022179616000000000005402317961700000000000540241797060000000000054025179707000000000005402618017600000000000540271801770000000000054028180178000000000005402918019900000000000540301802005385017920154031180201542071812015403318020353851179202540341802045403518020554046180216542221812165404718021754224181218540501802205422618122054051180221540521802225406818023854244181238540701802405424618124054072180242542481812425407518024554252181246540781802485407718024754081180251540821802525408318025354084180254540861802565408718025754091180261000000000005409218026200000000000540931802630000000000054094180378000000000005409518037953913179379541011803855410018038454102180386541031803875410418038853923179389541051803895392417939054120180404539371794035412118040553938179404541221804065430118140554123180407541241804085412518040953942179408541271804115412618041054130180414541291804135413118041553949179415541331804175413218041654134180418541351804195413718042153955179421541381804225395617942254139180423541401804245414618043054145180429541471804315396617943254148180432543281814325414918043354330181434541501804345433118143554151180435541521804365415618044054157180441541601804445416118044554162180556000000000005416418056054163180559)
 (.leaf 5416518056154343181561541661805625398517956254167180563541681805645417218056800000000000541731805690000000000054177180581541761805805417818058253996179582541821805865418118058554185180589543631815895418618059054364181590541911805990000000000054192180603000000000005419318061400000000000541941806150000000000054195180620000000000005419618062100000000000541971806220000000000054198180624000000000005419918062500000000000542001811770000000000054201181178000000000005420218117900000000000542031811800000000000054205181199542041811985420618120054396182200542081812025403218020254209181203542101812045421618121054217181211542181812125440918221354219181213544101822145422318121754413182217542271812215441718222154228181222540531802235422918122354230181224542321812265423318122754237181231540621802325424118123554432182236542491812435443918224354254181248542531812475425518124954446182250542581812525425918125354262181256542631812575426518125954089180259542661812605409018026054267181261542681812625426918126300000000000542741813785427318137754278181382542771813815428418138854283181387542851813895410618039054286181390541071803915429218139654291181395542931813975411318039754294181398541141803985430218140654301181405543031814075430418140854308181412543071814115430918141354501182412543151814195413518041954316181420543171814215432518142954324181428543261814305451918243054327181431545191824305432918143354330181434))))))))
 (.node 64 (.node 32 (.node 16 (.node 8 (.node 4 (.node 2 (.node 1 (.leaf 5433218143654153180437543331814375433418143854336181440543371814415434118150600000000000543421815600000000000054346181564541681805645434718156554348181566543491815670000000000054350181568000000000005435118156900000000000543541815805435318157954355181581545471825815435618158254357181583543581815845417918058354359181585545511825855436018158654553182587543611815875455418258854365181591541881805925436618159254188180592543671815935436818159454371181600000000000005437218160300000000000543731816040000000000054374181605000000000005437518160600000000000543761816140000000000054377181615000000000005437818161600000000000543791816210000000000054380181622000000000005438218162454381181623543831816255457618262554384181626000000000005438618162800000000000543871816300000000000054388181631000000000005438918163200000000000543901816930000000000054391181699000000000005439218170800000000000543931821770000000000054394182198000000000005439518219954396182200543971822015459118320154400182204542111812055440118220554402182206544051822095459918320954407182211546021832125441118221554606183216544121822165441318221754418182222546121832225441918222354230181224544201822245442118222554424182228546181832285442518222954236181230544261822305442718223154428182232544291822335443318223754627183237544341822385443518223954437182241546311832415444018224454441182245544441822485444318224754445182249546391832495444818225254642183252)
 (.leaf 5445418225854264181258544551822595464918325954456182260546501832605445718226154651183261544601822645427018126454461182265542711812655446218226654272181266544651822690000000000054468182379542751813795446918238054663183380544711823825427718138154472182383542791813835447818238954479182390544801823915448118239254484182395546791833965448518239654291181395544871823985448618239754490182401544891824005449218240354299181403544941824055430118140554497182408543051814095449918241054498182409545061824175431318141754508182419545071824185450918242054510182421545181824295451718242854520182431545211824325452218243354523182434545241824355471918343654525182436547201834375452618243754527182438545301824415472518344254531182442545321824435453318255700000000000545341825580000000000054535182560000000000005453618256100000000000545401825655473318356554541182566543481815665454418257800000000000545461825805454518257954548182582545471825815454918258354746183584545501825845474718358554552182586547481835865455718259154556182590545581825925475418359254559182593000000000005456018259400000000000545621825995456118259854563182600543701815995456518260200000000000545661826030000000000054567182604000000000005456818260500000000000545691826060000000000054570182615000000000005457118261900000000000545721826210000000000054573182622000000000005457418262300000000000545751826245477518362454577182626547771836265457818262754385181627))
 (.node 1 (.leaf 5457918262800000000000545801826290000000000054581182631000000000005458218263200000000000545831826590000000000054584182709000000000005458518271000000000000545861827110000000000054587182712000000000005458818319800000000000545891831995459018320054592183202543981822025459318320354594183204545951832055480118420654596183206545971832075459818320854599183209546011832115480718421254608183218544141822185460918321954415182219546101832205461118322154620183230546211832315462818323854627183237546291832395483518424054636183246548411842465464618325654647183257546581832685446418226854660183270000000000005466618338354665183382546671833845447318238454668183385544741823855467118338854477182388546771833945448218239354678183395546791833965468118339854486182397546851834025468418340154687183404544931824045468918340654688183405546911834085469018340754692183409546931834105469718341454696183413546981834155450318241454700183417545051824165470118341854907184418547031834205490918442054706183423547071834245470918342654515182426547131834305471218342954714183431549211844325471618343354523182434547171834345471818343554724183441549311844425472618344300000000000547271835570000000000054728183558000000000005472918356100000000000547301835625453718256254731183563545381825635473218356454733183565547351835675493918456754736183568547371835695473818357000000000000547391835710000000000054740183572000000000005474318358154945184580)
 (.leaf 5474418358254948184583547451835835494818458354752183590549551845905475318359154754183592547551835930000000000054756183598000000000005475918360154564182601547601836025496318460254761183603000000000005476218360400000000000547631836050000000000054764183608000000000005476518360900000000000547661836100000000000054767183611000000000005476818361200000000000547691836140000000000054770183615000000000005477118361600000000000547721836190000000000054773183620000000000005477818362754973184627547791836280000000000054780183630000000000005478118363100000000000547821836320000000000054783183633000000000005478618363600000000000547881836450000000000054789183659000000000005479018369100000000000547911837100000000000054792184197000000000005479418419954793184198547971842025479618420154798184203549971852035479918420454998185204548021842075500218520854804184209550031852095480818421355008185214548141842195501318521954815184220550141852205481618422154612183222548171842225461318322354818184223546141832245481918422454615183225548201842255482118422654825184230550241852305482618423155026185232548271842325462318323354828184233546241832345482918423454624183234548341842395503318523954848184253546431832535485118425654647183257548541842595464918325954855184260546501832605486018426554655183265548611842665465618326654863184268548641842695486618427100000000000548681843790000000000054869184380550751853795487018438155077185381)))
 (.node 2 (.node 1 (.leaf 5487318438455080185384548741843855508118538554875184386546691833865487718438854672183389548781843895467218338954879184390546731833905488018439154881184392548821843935509018539454883184394550901853945488418439555091185395548861843975488518439654888184399548871843985489018440154889184400548921844035489118440254896184407546901834075489818440954899184410549041844155490318441454905184416546991834165490818441954702183419549111844225470518342254912184423549131844245491918443054918184429549201844315492118443254922184433549231844345493018444100000000000549321845590000000000054933184561000000000005493418456200000000000549351845635493618456454938184566551441855675494318457100000000000549441845720000000000054946184581551531855805494718458255154185581549561845915495518459054957184592000000000005495818459300000000000549601845995495918459854961184600547581836005496218460155170185601549651846080000000000054966184611000000000005496718461200000000000549681846190000000000054969184620000000000005497018462400000000000549741846280000000000054975184632000000000005497718463454784183634549801846375478718363754981184638000000000005498418464100000000000549851846530000000000054986184654000000000005498718465500000000000549881846600000000000054989184711000000000005499018471200000000000549911850160000000000054992185198000000000005499318519900000000000549941852000000000000054995185201549961852025499918520555209186206)
 (.leaf 5500118520755211186208550041852105521318621055005185211550061852125501018521655011185217550251852315523418623155027185233550281852345502918523554831184236550301852365523918623655031185237552401862375503418524055244186241550361852425524618624355041185247550421852485504718525355048185254550561852625485818426355057185263548581842635505918526555060185266550611852675486218426755063185269548651842705506718527354867184273550691852750000000000055074185280000000000005507918538354872184383550821853865529018638555083185387548761843875508418538855293186388550851853895508618539055089185393552971863925509318539755092185396550941853985488718439855097185401550961854005509818540254891184402550991854035489118440255100185404548931844045510118540554894184405551021854065489518440655104185408548971844085510518540955106185410551151854195490918442055118185422553271864225511918542354913184424551201854245491318442455125185429551241854285512618543055127185431551281854325533718643255129185433551301854345513118543555341186436551331854375513418543855138185560000000000005513918556200000000000551401855635534718656355141185564551421855655514518556854941184569551471855705494218457055148185571000000000005514918557200000000000551501855730000000000055151185575000000000005515218557600000000000551561855830000000000055163185590551621855895516418559155165185592551661855970000000000055167185598549591845985516818559955373186599))
 (.node 1 (.leaf 5516918560000000000000551721856035517118560255173185604000000000005517418561600000000000551751856170000000000055176185618000000000005517718561900000000000551781856240000000000055180185626551791856255518118562754973184627551821856285497318462755183185629000000000005518518563355184185632551861856345497618463355187185635554011866365518918563755188185636551901856385540318663855191185639549821846395519218564054983184640551931856410000000000055194185642000000000005519518564300000000000551961856600000000000055197185661000000000005519818566200000000000551991857110000000000055200185712000000000005520118571300000000000552041862015520318620055205186202552061862035521418621155432187212552151862125543318721355220186217554371872175522118621855438187218552221862195501418522055223186220550151852215522918622655021185227552311862285502218522855238186235552391862365524818624555039185245552501862475525118624855253186250550441852505525518625255045185251552571862545504818525455268186265552691862665527018626755062185268552711862685506218526855276186273550681852745527718627455278186275552801862775507118527755285186380000000000005528618638100000000000552891863845550818738455292186387552911863865529418638955513187389552951863905508718539155296186391552971863925530818640355527187403553121864075510318540755313186408555321874085531718641255108185412553221864175511218541655324186419553251864205532618642155544187420)
 (.leaf 5532918642455328186423553311864265512118542555332186427551231854275533318642855552187428553341864295555318742955335186430555531874295533618643155555187431553381864335533918643455340186435553411864365534618656000000000000553481865645534718656355349186565551431855665535418657055355186571553561865730000000000055357186575000000000005535818657600000000000553601865820000000000055361186583000000000005536818659055367186589553691865915537018659255371186597000000000005537218659855579187599553741866000000000000055375186601000000000005537618660255583187603553771866035537818660455379186612000000000005538018661300000000000553811866140000000000055382186615000000000005538318661600000000000553841866170000000000055385186618000000000005538618661900000000000553871866200000000000055388186621000000000005538918662400000000000553901866250000000000055391186626555931876265539218662700000000000553931866285559518762855394186629000000000005539818663355399186634554041866395540318663855406186641554051866405540718664255609187642554081866435561018764355409186644000000000005541018664500000000000554111866460000000000055412186662000000000005541318666300000000000554141866640000000000055415186669000000000005541618704900000000000554171870500000000000055418187198000000000005542018720055419187199554211872015542218720255423187203556261882035542818720855632188209554341872145521718621455435187215552181862155544018722055441187221))))
 (.node 4 (.node 2 (.node 1 (.leaf 5544318722355226186223554461872265544718722755448187228552321862295545018723055233186230554591872395546018724055467187247554681872485547218725255256186253554811872615526418626155484187264552671862645548618726655269186266554971872775549618727655498187278552811862785550018728055283186280555021872820000000000055503187283000000000005550418729500000000000555051873810000000000055506187382000000000005550718738355708188382555101873865550918738555512187388557141883885551418739055716188390555171873935551818739455520187396555191873955552318739955304186399555241874005530418639955525187401553061864015552618740255728188402555291874055531018640555530187406553111864065553418741055315186410555371874135573918841355540187416553211864165554118741755321186416555431874195532518642055545187421557471884215554818742455547187423555491874255533018642555550187426555511874275555418743055553187429555571874335555818743455559187435557621884365556018743655561187437555631874390000000000055564187564000000000005556518756555566187566555681875685556918756955570187570557741885715557118757100000000000555721875830000000000055573187589000000000005557418759000000000000555751875910000000000055576187592000000000005557718759700000000000555801876000000000000055581187601000000000005558218760200000000000555861876120000000000055587187613000000000005558818761400000000000555891876160000000000055590187620000000000005559118762100000000000)
 (.leaf 5559218762500000000000555941876270000000000055596187629557851886295559718763055395186630555981876315539618663155600187633555991876325560318763655602187635556041876375579318863755605187638556061876395560818764155405186640556111876445580018864455612187645558011886455561318764655802188646556141876470000000000055616187664000000000005561718766500000000000556181880490000000000055619188050000000000005562118819855620188197556241882015562318820055625188202554221872025563018820755823189208556311882085582418920955633188210558261892115563518821255636188213556371882145563618821355646188223554441872245565118822855652188229556531882305565418823155657188234556581882355566018823755661188238556681882455546518724555669188246554661872465567218824955469187249556731882505547018725055674188251554711872515567818825555475187255556801882575547718725755681188258554781872585568218825955479187259556841882615548218726255686188263556851882625569618827355493187273556991882765549618727655700188277554961872765570118827855892189277557031882805549918727955704188281555011872815571118838555508187384557231883975572218839655736188410555351874115573718841155535187411557401884145593118941355743188417557421884165574518841955936189418557461884205554418742055750188424559411894235575118842555942189424557521884265594318942555753188427557541884285575618843055755188429557571884315555518743155759188433559511894335576018843455761188435))
 (.node 1 (.leaf 5576618844000000000000557671885640000000000055768188565000000000005576918856600000000000557701885675556718756755775188589000000000005577618859200000000000557771885990000000000055778188600000000000005577918860300000000000557801886040000000000055781188605000000000005578218860600000000000557831886250000000000055784188626000000000005578618863000000000000557871886310000000000055788188632559721896325578918863355973189633557901886345597418963455791188635559751896355579218863655976189636557951886395560618763955796188640556071876405579718864155607187640558061886500000000000055807188663000000000005580818866400000000000558091886650000000000055810188666000000000005581118901000000000000558151892005562218819955816189201560041902025581718920256004190202558281892135563618821355829189214556381882155583218921755641188218558331892185564218821955835189220558361892215583918922455648188225558421892275565018822755844189229558451892305584618923155847189232558481892335565618823355851189236556591882365585218923755853189238558571892425566518824255860189245556671882445586318924855671188248558641892495586518925055867189252556751882525586818925355676188253558731892585587218925755874189259558751892605587718926255685188262558781892635568718826455879189264556881882655588018926555688188265558821892675569118826855891189276558901892755589318927855892189277558941892795570218827955895189280560821902805589618928155705188282)
 (.leaf 5589718928255706188283558981892835589918928455902189384559011893835590418938655903189385559051893875609519038755908189390559071893895592118940355728188402559231894055592218940455928189410559271894095592918941155738188412559331894155593218941455937189419561261904185593818942056128190420559441894265594318942555946189428559451894275594718942955755188429559481894305613919043155949189431561391904315595018943255758188432559551894375595618943855957189470000000000005595818947100000000000559591895660000000000055960189567557711885685596118956855772188569559621895695577318857055963189570559641895715596518959900000000000559661896000000000000055967189603000000000005596818960400000000000559691896050000000000055970189606000000000005597118961900000000000559771896375616319063655979189639561661906395598018964056167190640559811896415616819064155983189643557991886435598418964455800188644559851896455580018864455986189646558021886465598818964855804188648559901896505598918964955991189651000000000005599218965200000000000559931896580000000000055994189663000000000005599518966400000000000559961896650000000000055997189673000000000005599818967400000000000559991901970000000000056001190199560001901985600219020055814189199560031902015618919120156006190204558191892045600719020555821189206560081902065582118920656009190207560101902085601519021356016190214560171902155583018921556023190221558361892215602619022455840189225)))
 (.node 2 (.node 1 (.leaf 5602819022656029190227560301902285603119022956034190232558471892325603719023555850189235560381902365603919023756046190244558591892445604719024555859189244560511902495605219025056055190253560561902545605719025555870189255560601902585624719125956061190259560621902605606719026556068190266560731902715588618927156075190273558881892735607719027556076190274560791902775607819027656081190279560801902785608619028456087190285560891902870000000000056090190288000000000005609119028900000000000560941903865609319038556096190388559061893885609719038956283191389560991903915590918939156100190392559101893925610419039655914189396561061903985591618939856107190399559171893995610919040156110190402561171904095611819041056120190412559301894125612319041556122190414561241904165631019141656125190417559351894175613119042356130190422561321904245631819142456133190425563181914245613719042956323191429561381904305632319142956140190432563261914325614219043455952189434561431904355614419043656147190439000000000005614819056400000000000561491905670000000000056150190568563341915695615119056956152190570561551905995615419059856156190600000000000005615719060300000000000561581906040000000000056159190605000000000005616019060600000000000561641906375634519163656169190642563511916425617019064355982189642561741906475598718964756176190649559891896495617819065100000000000561791906540000000000056180190660000000000005618119066200000000000)
 (.leaf 5618219066356372191663561831906640000000000056184190669000000000005618819120056187191199561921912045619319120556194191206561951912075619619120856010190208561971912095601119020956202191214560161902145620419121656205191217562071912195602219022056208191220560221902205621019122256025190223562111912235602519022356213191225560271902255621419122656029190227562151912275621619122856223191235562221912345622419123656039190237562311912435604519024356232191244562331912455623419124656048190246562371912495623619124856240191252560541902525624119125356056190254562431912555624219125456244191256560581902565624519125756059190257562501912625606419026256252191264560661902645625419126656068190266562571912695607119026956258191270560721902705626219127456263191275562651912775626419127656266191278560801902785626719127956459192279562681912805626919128156271191283560851902835627319128556087190285562751912875627619128856278191384000000000005628519139156477192391562931913995629419140056299191405561131904055630219140856116190408563031914095611819041056306191412563071914135631519142156314191420563191914255651119242556320191426561341904265632119142756135190427563221914285613619042856325191431563261914325632719143356141190433563281914345652119243556329191435565221924365633019143656331191437563321914380000000000056333191568000000000005633519157000000000000563361915710000000000056338191585000000000005633919159900000000000))
 (.node 1 (.leaf 5634019160000000000000563411916050000000000056342191625000000000005634319162800000000000563441916290000000000056347191638563461916375634819163956539192639563501916415654119264156352191643565421926425635419164556545192645563551916465654619264656356191647561731906465635719164856549192649563581916495617519064856361191652000000000005636319165400000000000563641916550000000000056365191656000000000005636619165700000000000563671916580000000000056368191659000000000005636919166000000000000563701916615655919266156371191662000000000005637319166900000000000563741916700000000000056375191712000000000005637619171400000000000563771921970000000000056379192199563781921985638019220056565193199563811922015619019120256385192205565721932065638719220756195191207563921922125620019121256397192217562061912185639819221856399192219564011922215640219222256405192225564061922265640719222756216191228564121922325622019123256414192234564151922355642219224256230191242564271922475623519124756429192249564281922485643219225256431192251564331922535624219125456436192256564351922555643719225756438192258564391922595624719125956441192261562491912615644219226256249191261564441922645625119126356446192266564451922655644719226756255191267564491922695645019227056452192272562601912725645319227356261191273564571922775645619227656458192278564591922795646019228056461192281564631922835627219128456464192284564651922855646619228656465192285)
 (.leaf 5646719228756468192288564711923855665619338556472192386562791913855647319238756281191387564741923885628119138756475192389566601933895648619240056487192401564881924025648719240156489192403562971914035649119240556490192404564921924065630019140656494192408564931924075649519240956304191410564981924125649919241356500192414563081914145650219241656501192415565041924185650519241956506192420566911934205650719242156692193421565081924225631619142256509192423563161914225651319242756512192426565141924285651519242956517192431565181924325651919243356704193433565201924345652119243556524192438000000000005652519243900000000000565261925710000000000056527192572563371915725653019257500000000000565321925810000000000056533192600000000000005653419262800000000000565351926290000000000056537192637565361926365653819263856733193638565431926435654219264256547192647567431936485654819264856744193649565501926505654919264956551192651563601916515655219265256747193652565531926535636219165356554192654567501936555655519265500000000000565561926580000000000056557192659000000000005655819266000000000000565601926690000000000056561192670000000000005656219267100000000000565631927120000000000056564192714000000000005656819320256567193201565701932045638419220456571193205567591942055657419320856388192208565761932105639019221056578193212565791932135658019321456394192214565811932155639619221656582193216565831932175658819322256402192222)))))
 (.node 8 (.node 4 (.node 2 (.node 1 (.leaf 5658919322356404192224565901932245659119322556604193238564181922385660719324156608193242566101932445642419224456615193249564301922505661919325356434192254566201932545662119325556623193257566221932565662419325856438192258566251932595644019226056626193260566271932615662919326356443192263566301932645663119326556632193266566311932655663319326756448192268566341932685663519326956642193276564561922765664419327856643193277566451932795664619328056649193283566501932845665319328756652193286566541932885646919228956655193289000000000005666319339256478192392566681933975648319239756674193403566731934025667819340756493192407566801934095667919340856686193415566851934145668719341656501192415566881934175650319241756693193422568821944225669419342356883194423566951934245688419442456696193425568851944255669819342756697193426566991934285688919442956702193431568911944315670319343256892194432567061934355670719343656710193439000000000005671119357000000000000567121935710000000000056713193572000000000005671419357356528192573567161935755671519357456717193576565311925765671819357700000000000567191935780000000000056720193579000000000005672119358000000000000567231935820000000000056724193583000000000005672519358400000000000567271935860000000000056728193587000000000005672919358800000000000567301935900000000000056731193628000000000005673719364256927194642567381936435692819464356740193645569301946455674619365156745193650)
 (.leaf 5674919365400000000000567511936700000000000056752193671000000000005675319367300000000000567571942035675619420256761194207565731932075676219420856763194209567641942105676319420956766194212567651942115676719421356768194214567721942185658519321956775194221567761942225677719422356778194224567791942255659219322656780194226565931932275678119422756782194228567861942325659819323256793194239566051932395679519424156608193242567991942455661119324556800194246566121932465680219424856803194249568051942515661719325156807194253568061942525680919425556621193255568121942585681119425756813194259568141942605681619426256628193262568171942635662819326256820194266568191942655682119426756822194268568291942755664119327556832194278568311942775683319427956646193280568341942805664619328056835194281566471932815683619428256647193281568391942855665119328556840194286568411942875684719438757037195386568501943905666119339056856194396566661933955686919440956679193408568721944125668319341256873194413568741944145687719441756876194416568781944185668919341856879194419566901934195688119442156880194420568861944265688519442556887194427566971934265689319443357084195433568941944345670519343456895194435568961944365689719443756709193438568981944380000000000056899194439000000000005690019450400000000000569011945720000000000056902194573000000000005690319457400000000000569041945750000000000056905194576569061945775690819457956907194578))
 (.node 1 (.leaf 5690919458057097195580569101945815672219358156914194585000000000005691519458600000000000569161945870000000000056917194601000000000005691819461700000000000569191946220000000000056920194623000000000005692119463600000000000569221946370000000000056926194641569251946405692919464457121195644569311946465712419564756932194647571251956485693419464957126195649569361946515693519465056937194652567471936525693819465356939194654569401946710000000000056941194673000000000005694219467400000000000569431947140000000000056944194717000000000005694519520000000000000569481952035694719520256950195205569511952065695219520756760194206569531952085676319420956956195211569551952105695719521256958195213569601952155676919421556961195216567701942165696519522056966195221569771952325697819523356982195237567911942375698519524056794194240569861952415679619424256991195246569901952455699619525156804194250569971952525680619425257003195258570021952575700419525957005195260570071952625700619526157008195263570091952645701119526657010195265570131952685682219426857016195271568251942715702319527857022195277570241952795722019628057025195280572201962805702619528157221196281570271952825722219628257028195283568371942835703019528557029195284570311952865703219528757034195289570351952905703619533100000000000570391953885703819538757041195390570401953895704219539156851194391570431953925685219439257044195393568541943945706019540957061195410)
 (.leaf 5706219541157257196412570631954125725719641257065195414570641954135706619541557067195416570701954195706919541857071195420568801944205707319542256882194422570761954255727019642557077195426572711964265707819542756888194428570791954285688819442857082195431568901944305708319543257084195433570901954390000000000057091195574000000000005709219557500000000000570931955760000000000057096195579000000000005709819558156911194582570991955825691119458257100195583571011955845710319558600000000000571041955870000000000057105195588000000000005710619561100000000000571071956120000000000057108195613000000000005710919561900000000000571101956220000000000057111195623000000000005711219563500000000000571131956360000000000057114195637573221966375711619563957115195638571181956415732519664057128195651000000000005713019565357129195652571311956540000000000057133195673000000000005713419567400000000000571351956760000000000057136195677000000000005713719567800000000000571381957170000000000057139196014000000000005714019601500000000000571411962010000000000057142196202000000000005714319620357352197203571481962085695419520957152196212571511962115715319621357154196214571551962155695919521457157196217569631952185716019622057161196221571621962225716319622357166196226569721952275716719622756973195228571701962305697519523057172196232569761952315717519623556980195235571761962365698119523657177196237569811952365718119624157180196240)))
 (.node 2 (.node 1 (.leaf 5718619624657185196245571871962475699219524757188196248569931952485718919624956994195249571951962555700019525557196196256571971962575719819625857197196257571991962595720019626057202196262572011962615720419626457009195264572061962665720519626557209196269570151952705721119627157212196272572131962735701819527357216196276570201952755721819627857217196277572191962795742919728057225196285572241962845722619628657227196287572351963905723419638957236196391574441973915723719639257238196393572391963945704519539457242196397570481953975725319640857059195408572551964105706119541057260196415572591964145726119641657067195416572631964185726219641757264196419574721974195726519642057266196421572671964225726619642157268196423574771974245727219642757271196426572751964305727419642957276196431572771964325728219643757088195437572831964380000000000057285196581000000000005728619658200000000000572871965830000000000057288196584000000000005728919658500000000000572901965860000000000057291196587000000000005729219658800000000000572931965890000000000057294196590000000000005729519659100000000000572961965920000000000057297196593000000000005729819659400000000000572991965950000000000057300196596000000000005730119659700000000000573021966000000000000057303196601000000000005730419660200000000000573051966050000000000057306196606000000000005730719660700000000000573081966080000000000057309196609000000000005731019661000000000000)
 (.leaf 5731119661200000000000573121966130000000000057313196614000000000005731419661500000000000573151966160000000000057316196617000000000005731719661900000000000573181966210000000000057319196622000000000005732019663500000000000573211966360000000000057327196642573261966415732819664357329196644573331966510000000000057335196653573341966525733619665457132195655573371966555713219565557339196674000000000005734019667500000000000573411966770000000000057342196678000000000005734319667900000000000573441966810000000000057345196718000000000005734619701400000000000573471970150000000000057348197043000000000005734919707900000000000573501970800000000000057355197206573561972075735719720857149196209573581972095714919620957362197213573611972125736419721557154196214573651972165715619621657369197220571611962215737219722357164196224573751972265737619722757379197230571691962295738019723157171196231573881972395717919623957389197240571801962405739119724257182196242573961972475739519724657398197249573971972485739919725057190196250574001972515719119625157401197252571921962525740519725657404197255574071972585740819725957411197262574121972635741319726457412197263574141972655720519626557416197267574171972685741819726957417197268574221972735721419627457423197274572141962745742519727657424197275574261972775761719827757427197278576191982795742819727957429197280574351972865743419728557436197287574371972885744319739057442197389))
 (.node 1 (.leaf 5744519739257635198391574471973945724019639557449197396574481973955745019739757241196396574611974085746019740757462197409572541964095746319741057464197411574671974145725919641457468197415574691974165747119741857470197417574741974215726619642157475197422572661964215747619742357477197424574781974255727019642557480197427572731964285748219742957273196428574831974305767519843157484197431574851974325748619743357279196434574881974355728019643557489197436572811964365749219743900000000000574931975870000000000057494197588000000000005749519758900000000000574961975900000000000057497197591000000000005749819759200000000000574991975930000000000057500197594000000000005750119759500000000000575021975960000000000057503197597000000000005750419759800000000000575051975990000000000057506197600000000000005750719760100000000000575081976020000000000057509197603000000000005751019760400000000000575111976050000000000057512197606000000000005751319760800000000000575141976100000000000057515197611000000000005751619761200000000000575171976130000000000057518197614000000000005752019764100000000000575211976425769519864257522197643576971986445752319764457697198644575241976455733019664557525197646000000000005752719765200000000000575281976530000000000057529197654577011986545753019765557338196656575311976560000000000057532197662000000000005753319767400000000000575341976750000000000057535197676000000000005753619768100000000000)
 (.leaf 5753719768200000000000575381977180000000000057539198016000000000005754019801700000000000575411980430000000000057543198203575421982025754519820557546198206575471982075754819820857549198209575501982105755319821357361197212575551982155755419821457556198216573661972175756819822857377197228575691982295737819722957574198234573831972345757519823557384197235575791982395757819823857584198244575831982435758819824857587198247575891982495776019924857590198250577631992515759119825157592198252575941982545740319725457596198256575951982555759719825757406197257575981982585759919825957601198261574101972615760219826257603198263576051982655760419826457606198266574151972665760719826757417197268576091982695741919727057610198270576111982715761219827257421197272576131982735761419827457616198276577881992765762119828157430197281576221982825762319828357624198284577961992845762619828657798199286576271982875780019928857628198288000000000005762919828900000000000576321983885780319938857636198392576351983915763719839357446197393576421983985745119739857648198404574571974045765019840657459197406576521984085765119840757653198409576541984105765619841257465197412576591984155765819841457660198416576611984175766319841957472197419576651984215766419842057666198422578381994235766719842357668198424576691984255747719742457670198426578421994275767119842757843199428576721984285748119742857673198429576741984305767619843257485197432))))
 (.node 4 (.node 2 (.node 1 (.leaf 5767919843557680198436576811984375749019743757682198438574911974385768419845200000000000576851985940000000000057686198598000000000005768719859900000000000576881986000000000000057689198608000000000005769019860957861199609576911986100000000000057692198611000000000005769319861200000000000576941986410000000000057696198643000000000005769819864500000000000576991986460000000000057702198655577011986545770319865657866199657577051986580000000000057706198660000000000005770719866100000000000577081986650000000000057709198679000000000005771019868000000000000577111986810000000000057712198682000000000005771319908100000000000577141990820000000000057716199204577151992035771719920557544198204577241992125772319921157725199213575521982125772719921557728199216577321992205756119822157733199221575621982225773519922357564198224577371992255756619822657746199234577451992335774719923557576198236577511992395775019923857753199241575811982415775419924257582198242577561992445775519924357761199249577601992485776219925057924200249577651992535776619925457768199256577671992555776919925757770199258577731992615760019826057774199262577751992635777719926557604198264577781992665794020026557779199267576081982685778319927157782199270577841992725778519927357791199279576191982795779219928057620198280577931992815779419928257795199283577961992845779919928757962200287578011993860000000000057802199387579642003875780819939357807199392)
 (.leaf 5781019939557809199394578131993985764119839757819199404578181994035782219940757651198407578271994125782819941357830199415578291994145783119941657661198417578351994205783419941957836199421579982004215783719942257838199423578401994255783919942457841199426580032004265784419942958006200429578451994305800720043057846199431576751984315784819943357677198433578501994355768019843657851199436578521994375785419943900000000000578551995980000000000057856199599000000000005785719960000000000000578581996010000000000057859199607000000000005786019960858024200608578621996100000000000057863199654000000000005786419965558027200655578651996565802820065657867199658000000000005786819965900000000000578691996600000000000057870199661000000000005787119966200000000000578721996790000000000057873199680000000000005787419968100000000000578751996820000000000057876200037000000000005787720003800000000000578792002045787820020357880200205580392012055788120020657718199206578822002075771919920757883200208577211992095788420020957721199209578882002135788720021257889200214577261992145789020021557726199214578912002165789220021757897200222578982002235790220022757903200228579052002305774219923057907200232577441992325790920023457908200233579122002375774919923757915200240577521992405791720024257755199243579202002455791920024457921200246577571992455792220024757758199246579262002515792520025057927200252577641992525792920025457928200253))
 (.node 1 (.leaf 5793120025657930200255579322002575793320025857936200261577721992605793720026257938200263579422002675794120026657943200268577801992685794420026957781199269579462002715778219927057947200272577851992735794820027357949200274579522002775795320027857954200279581142012805795520028058115201281579562002815811520128157957200282579582002835795920028457797199285579602002855812020128657967200390579662003895797320039657974200397579762003995781419939957980200403578181994035798420040757821199406579852004085782319940857988200411578261994115798920041257990200413579922004155799120041457993200416579942004175799520041858151201417579962004195815320141957997200420581552014215799920042258156201422580042004275800520042858008200431580072004305800920043257847199432580102004335784919943458011200434578491994345801220043558013200436580142004375801520043858018200571000000000005801920060000000000000580202006010000000000058021200603000000000005802220060600000000000580232006070000000000058025200609000000000005802620064400000000000580292006570000000000058030200658000000000005803120065900000000000580322006600000000000058033200661000000000005803420066200000000000580352006820000000000058036200683000000000005803720102800000000000580402012065819520220558041201207581972022075804220120858043201209580442012105788520021058045201211580462012125804820121458047201213580492012155805020121658051201217578932002185805220121858053201219)
 (.leaf 5805720122358058201224580592012255790120022658065201231580642012305806620123257906200231580672012335790820023358068201234579102002355806920123558070201236580712012375807020123658072201238579132002385807420124057916200241580792012455807820124458080201246580812012475808320124958082201248580842012505792520025058085201251579252002505808620125258087201253580882012545792820025358090201256580912012575809520126158094201260580962012625809720126358099201265580982012645810120126758100201266581022012685825920226958103201269581042012705810520127158261202271581062012725826320227358107201273581082012745811120127758110201276581132012795811420128058116201282582732022835811720128358274202284581192012850000000000058125201391579682003915812620139258127201393581302013965797220039558132201398579752003985813320139957977200400581342014005797820040158135201401579792004025813620140257979200402581402014065813920140558141201407579832004065814220140857986200409581462014125799020041358147201413579902004135814920141557991200414581502014165815120141758152201418581512014175815420142058309202420581582014245815920142558160201426583142024255816320142958317202428581642014305831920243058165201431583202024315816620143258321202432581672014335816820143458170201436583252024365817120143758326202437581722014385832720243858175201441000000000005817620147300000000000581772016030000000000058178201605000000000005817920160600000000000)))
 (.node 2 (.node 1 (.leaf 5818020162500000000000581812016430000000000058182201644000000000005818320164500000000000581842016600000000000058185201661000000000005818620166300000000000581872016650000000000058188201683000000000005818920168400000000000581902016910000000000058191201692000000000005819220171800000000000581932017190000000000058196202206583472032055819820220858199202209582052022155820420221458206202216582072022175820920221958054201220582102022205821120222158221202231582202022305822320223358222202232582242022345822520223558227202237580702012365822820223858229202239582362022465823520224558237202247580822012485824420225458087201253582462022565824720225758251202261582502022605825420226458253202263582552022655809820126458256202266584072032655825720226758258202268582642022745810820127458266202276582652022755826820227858112201278582692022795811420128058270202280581152012815827120228158272202282582792023905812320138958280202391581242013905828520239658284202395582862023975813120139758287202398582882023995829320240458138201404582942024055844520340558295202406584462034065829720240858296202407582982024095814320140958299202410581442014105830120241258300202411583032024145814820141458304202415583052024165830620241758151201417583072024185845820341858312202423583112024225831320242458465203425583152024265831420242558318202429584692034295832220243358473203433583232024345832420243558328202439583292024405833020244600000000000)
 (.leaf 5833120262000000000000583322026210000000000058333202622000000000005833420262300000000000583352026240000000000058336202625000000000005833720262600000000000583382026270000000000058339202632000000000005834020263300000000000583412026440000000000058342202645000000000005834320266600000000000583442026680000000000058345203060000000000005834620306100000000000583492032075834820320658351203209581992022095835220321058511204210583542032125835320321158357203215583582032165836020321858361203219583622032205836320322158372203230583712032295837520323358534204233583762032345853420423358377203235582262022365837820323658226202236583822032405823020224058383203241582312022415838620324458233202243583882032465838720324558389203247583902032485839120324958240202250583922032505824020225058395203253582432022535839820325658245202255583992032575824820225858403203261582502022605840820326658567204266584092032675841020326858414203272582622022725841620327458415203273584172032755826520227558418203276582672022775841920327758579204278584202032785842120327958424203282584252032835842920338958277202388584312033915843020339058434203394584352033955843720339758436203396584392033995844020340058442203402584432034035844720340758446203406584492034095844820340858450203410586102044105845220341258451203411584532034135830220241358454203414584552034155846220342258461203421584632034235862320442358466203426584652034255846720342758316202427))
 (.node 1 (.leaf 5846820342858628204428584772034375832620243758478203438583272024385847920343958480203440584812034460000000000058482203447000000000005848320345400000000000584842034580000000000058485203620000000000005848620362100000000000584872036220000000000058488203623000000000005848920362400000000000584912036260000000000058493203628000000000005849420362900000000000584952036300000000000058496203631000000000005849720363200000000000584982036330000000000058499203644000000000005850020364500000000000585012036460000000000058502203680000000000005850320369300000000000585042040600000000000058505204061000000000005850720420600000000000585082042075866820520658509204208586702052085851420421358515204214585162042155851520421458517204216583592032175851820421758519204218585252042245836720322558528204227583692032275853620423558535204234585372042365869720523558540204239583812032395854120424058542204241585442042435838520324358547204246585462042455855020424958549204248585512042505839320325158555204254583962032545855720425658556204255585622042615840420326258565204264585642042635856620426558406203264585682042675856720426658569204268585702042695857220427158571204270585732042725857420427358576204275585752042745858120428058742205280585832042825858420428358586204386000000000005858820438858587204387585892043895842820338858590204390584302033905859120439158430203390585922043925843220339258593204393584332033935859620439658435203395)
 (.leaf 5859720439758438203398585982043985859920439958600204400584412034015860120440158602204402586062044065860520440558607204407587692054075860920440958771205409586112044115877220541058612204412587752054135861320441358775205413586142044145861520441558616204416584562034165862020442058619204419586212044215846020342058622204422586232044235862620442658625204425586272044275862820442858629204429587912054295863220443258472203432586332044335847420343458634204434586352044355863720443758638204438586402044400000000000058641204441000000000005864220444700000000000586432044480000000000058644204449000000000005864520445700000000000586462044580000000000058647204459000000000005864820455300000000000586492046210000000000058654204626584902036255865520462758492203627586592046310000000000058660204632000000000005866120463300000000000586622046340000000000058666204646000000000005866720471400000000000586692052075866820520658671205209585102042095867520521358676205214586782052165867920521758680205218585202042195868520522358524204223586862052245852620422558698205236588572062355870020523858538204237587012052395853920423858703205241585422042415871120524958710205248587142052525855320425258718205256587192052575872120525958560204259587222052605856120426058723205261585612042605872920526758728205266587302052685873120526958732205270585712042705873320527158734205272587382052765857720427658746205284000000000005874720538500000000000))))))
 (.node 16 (.node 8 (.node 4 (.node 2 (.node 1 (.leaf 5874920538758748205386587522053905875120538958753205391589122063915875420539258913206392587552053935891420639358756205394585942043945875820539658595204395587592053975876020539858761205399587622054005876520540358766205404587682054065876720540558770205408589292064085877320541158772205410587742054125893420641358776205414589352064145877720541558778205416587792054175861720441758781205419586192044195878320542158782205420587842054225862320442358785205423589442064235878720542558786205424587882054265878920542758792205430586302044305879320543158631204431587942054325879520543358798205436586362044365880420545000000000000588052054570000000000058806205458588072054595880920562158808205620588152056275865620462858817205629586572046295881920563158981206631588202056325898220663258821205633000000000005882320564458822205643588242056455866520464558825205646000000000005882620564700000000000588272057140000000000058828206007000000000005883020620858829206207588312062095899320720858832206210589952072105883320621158673205211588392062175867920521758840206218588412062195884320622158683205221588442062225868420522258850206228586902052285886020623858699205237588612062395902320723858862206240587022052405886620624458706205244588712062495887020624858872206250587122052505887520625358715205253588772062555871720525558878206256588792062575888220626058881206259588832062615872420526258889206267588882062665889020626858891206269)
 (.leaf 5889620627458735205273588972062755873720527558898206276590612072765889920627758739205277589002062785874020527858901206279589022062805890520628300000000000589102063895875020538858911206390590742073905891620639558757205395589172063965891820639758919206398590832073995892020639958921206400589252064045892620640558928206407590912074075893120641059094207410589322064115909520741158933206412589342064135893820641758937206416589392064185878020541858940206419587822054205894120642059105207421589422064215910520742158946206425587862054245894920642858950206429589512064305895020642958952206431589532064325895520643458797205435589582064375880020543858959206438589602064395896320645000000000000589642064560000000000058967206459000000000005896820646000000000000589692066190000000000058971206621589702066205897220662258810205622589732066235881120562358974206624588122056245897520662558813205625589762066265881420562658977206627588162056285897820662859146207629589792066295881820563058980206630588182056305898320663300000000000589872066465898620664558988206647000000000005898920701400000000000589902070150000000000058991207016000000000005899420720959165208208589982072135883520621359002207217588382062165900320721858841206219590062072215884220622059007207222588452062235900820722359009207224590162072315885220623059020207235588572062355902220723758859206237590252072405886320624159027207242588642062425903020724558868206246))
 (.node 1 (.leaf 5903120724658868206246590332072485886920624759035207250588732062515903620725158873206251590372072525887420625259040207255588762062545904620726158884206262590472072625888520626359049207264590482072635905020726558887206265590522072675905320726859059207274590582072735906020727559233208276590622072775906320727859065207280590662072815906820738400000000000590692073850000000000059070207386589062063855907220738858908206387590732073895890920638859075207391592472083915907820739458915206394590792073955925020839459080207396590812073975908220739859255208399590842074005908520740159097207413592682084125910020741659271208415591012074175910220741859103207419592742084185910420742059276208420591072074235894420642359109207425591082074245911020742658947206426591142074305928620843059115207431591162074325911720743359116207432591182074345895620643559119207435592922084365912020743659292208436591212074375912220743859124207440591252074415912620745500000000000591282074575912720745659129207458589662064585913020745959131207460591322076120000000000059135207615000000000005913720762058970206620591402076235913920762259141207624593152086235914320762659142207625591442076275914520762859147207630593232086315914820763100000000000591492076320000000000059150207633000000000005915120764300000000000591532076455915220764459154207646589862066455915520764700000000000591562076940000000000059157207695000000000005915820800300000000000)
 (.leaf 5915920801600000000000591602080180000000000059161208069000000000005916220807000000000000591632080770000000000059164208207000000000005916720821059166208209591682082115899720721259169208212589972072125917120821459000207215591742082175900120721659175208218593502092195917620821959350209219591772082205900520722059178208221590052072205918220822559011207226591852082285918620822959187208230590152072305919320823659021207236591952082385919420823759197208240591962082395919820824159026207241591992082425902820724359200208243590282072435920120824459029207244592022082455937520924459203208246593772092465920520824859204208247592062082495937920924859208208251592072082505920920825259038207253592112082545903920725459212208255592132082565921420825759042207257592162082595904420725959217208260590452072605921820826159219208262592252082685922620826959230208273592292082725923120827459058207273592322082755923320827659236208279592372082805924320838759071207387592442083885941820938959245208389594192093905925120839559424209395592522083965942620939759254208398594272093985925720840159430209401592582084025925920840359260208404592612084055926620841059265208409592722084165927320841759275208419592762084205927820842259277208421592792084235928020842459281208425594542094255928220842659455209426592832084275911120742759284208428591122074285928820843259116207432592892084335946320943459290208434592912084355929920845659298208455)))
 (.node 2 (.node 1 (.leaf 5930020845759473209456593012084585930220845959304208610000000000005930520861100000000000593062086120000000000059308208614591342076145931020861800000000000593112086190000000000059312208620591362076195931320862159138207621593182086265949520962659319208627594972096285932020862859497209628593222086305949920963059324208632000000000005932520863300000000000593262086340000000000059330208646593292086455933320864900000000000593342086940000000000059335208695000000000005933620906900000000000593372090700000000000059338209082000000000005934120921059340209209593422092115951221021159343209212595122102115934420921359514210213593452092145917020821359346209215591722082155934820921759347209216593492092185952021021959351209220595212102205935220922159522210221593532092225917920822259354209223595252102245935620922559183208226593582092275935920922859362209231591882082315937220924159371209240593732092425954221024159374209243593752092445937620924559546210245593802092495937920924859381209250593822092515938420925359385209254593902092595938920925859391209260593922092615939420926359220208263593952092645922120826459397209266592232082665939820926759224208267593992092685940020926959402209271594032092725940520927459404209273594062092755923320827659407209276594082092775940920927859235208278594102092795923720828059411209280594122092815941420938559413209384594152093865958521038559416209387592422083865941720938859418209389)
 (.leaf 5942020939159590210390594212093925959121039159425209396595972103975943120940259432209403594392094105943820940959440209411594412094125944220941359441209412594432094145927020841459444209415592712084155944520941659446209417594502094215944920942059451209422596222104225945220942359453209424594562094275962721042759457209428596282104285945820942959285208429594602094315928720843159461209432594622094335946420943559292208436594652094365929320843759466209437592942084385946720943859468209439594702094410000000000059471209454000000000005947420945759646210457594752094585964721045859476209459594772094605947820960900000000000594792096100000000000059480209611000000000005948320961459484209615594862096170000000000059487209618000000000005949020962159489209620594912096225949220962359494209625594952096265950420964659503209645595072096490000000000059508209650000000000005950920969300000000000595112102105968721121059513210212595142102135951521021459690211213595162102155969221121559517210216593472092165951921021859520210219595262102255935520922459527210226593572092265952821022759359209228595292102285953021022959532210231595312102305953621023559366209235595392102385936920923859543210242597192112425954421024359721211244595472102465954821024759549210248593792092485955021024959551210250595562102555938720925659560210259595592102585956221026159561210260595652102645956421026359566210265593962092655956721026659568210267))
 (.node 1 (.leaf 5956921026859400209269595702102695957121027059575210274597522112755957621027559752211275595772102765957821027759581210280594122092815958221028159583210282595862103865958521038559587210387597662113885958821038859589210389595922103925976921139159596210396597742113965959921039959600210400596032104035960421040459608210408596072104075961021041059611210411596122104125979021141259613210413597922114145961421041459792211414596162104165961521041559617210417597962114185961821041859797211419596192104195962021042059621210421597992114215962321042359801211423596242104245962521042559626210426596252104255962921042959807211429596322104325963321043359634210434594632094345963521043559636210436596372104375981621143859638210438598162114385963921043959818211440596402104405964121044159645210456594722094555964921046000000000000596502106080000000000059651210609000000000005965321061159652210610596542106125948120961259656210614596552106135965921061759485209616596632106215966221062059664210622596652106235967121062959672210630596732106310000000000059678210646596772106455967921064759505209647596812106495968021064859682210650000000000005968321069300000000000596842106940000000000059685210695000000000005968621101200000000000596882112110000000000059689211212598742122125969121121459876212214596942112175951821021759695211218596962112195969921122259523210222597002112235952521022459703211226597042112275971021123359533210232)
 (.leaf 5971321123659537210236597152112385953821023759717211240595402102395971821124159541210240597222112455972121124459723211246599082122465972521124859909212247597262112495991021224859727211250599122122505972821125159913212251597292112525955321025259736211259597352112585973721126059561210260597382112615956121026059739211262599242122625974021126359925212263597412112645992621226459742211265599272122655974321126659744211267597452112685993021226859746211269597472112705975121127459750211273597542112775994021227859755211278595792102785975621127959942212280597602113480000000000059764211386597632113855976521138759950212387597672113895995221238959770211392599552123925977121139359956212393597722113945995721239459777211399597782114005978221140459783211405597862114085997121240859788211410597872114095978921141159790211412598062114285980521142759808211430596312104315980921143159631210431598102114325999521243259811211433598122114345981321143559998212435598142114365981521143759817211439598182114405982221145359642210453598262114575982521145659827211458598282114595982921146000000000000598302114680000000000059831211469000000000005983221160800000000000598342116105983321160959835211611596522106105983621161259837211613598402116165965821061659842211618596602106185984421162059662210620598472116235984621162259848211624596662106245985521163159674210632598582116340000000000059860211643598592116425986421164759863211646))))
 (.node 4 (.node 2 (.node 1 (.leaf 5986521164859680210648598662116495968021064859867211650000000000005986821165100000000000598692116930000000000059870211694000000000005987121200000000000000598722120120000000000059873212056000000000005987921221759878212216598802122186007521321859881212219598822122205988521222359884212222598862122245970121122459889212227598902122285989721223559711211234598982122365971221123559899212237597142112375990021223859714211237599012122395971621123959902212240599032122415990521224360100213243599072122456010221324559911212249599102122485991421225259730211253599152122535991621225459917212255599182122565991921225759734211257599212122595992021225859922212260601172132605992321226160118213261599292122675993021226859932212270599312122695993321227160127213270599352122735975021127359936212274601322132755993721227560132213275599382122766013321327659943212281599442122825994521234800000000000599462123830000000000059962212399599632124005997021240759969212406599722124096016421340859973212410601662134105997421241159975212412599762124135979221141459978212415597932114155997921241660172213416599812124185979621141859982212419597972114195998621242359985212422599892124265999021242759991212428601842134285999421243159993212430599962124336018921343359999212436601932134376000121243860195213439600032124400000000000060004212448000000000006000521244900000000000600062124505981921145060007212451598202114516001321245760012212456)
 (.leaf 6001421245860015212459600162124790000000000060017212605000000000006001821260600000000000600192126070000000000060023212611600222126106002421261260218213612600252126135983721161360028212616598412116176003021261860031212619600322126205984321161960036212624600352126236003721262559849211625600382126265985021162660039212627598512116276004021262859852211628600412126295985321162960042212630598542116306004321263159856211632600452126335985721163360047212635000000000006004821263600000000000600492126380000000000060050212639000000000006005321264460052212643600582126496005721264860059212650000000000006006021265100000000000600612126590000000000060062212660000000000006006321269400000000000600642126950000000000060065212696000000000006006621271800000000000600672127190000000000060068213051000000000006006921305200000000000600702130560000000000060073213216602642142166007621321960075213218600772132205988221222060078213221600792132226008021322359884212222600812132246008221322560085213228598912122296009121323459896212234600932132366009221323560094213237602842142366009521323860286214238600962132396009721324060109213252601082132516011021325360111213254601122132556011121325460113213256599182122566011421325759918212256601152132585992021225860116213259603072142596011921326260310214262601202132636031121426360122213265603132142656012321326660124213267601252132685993021226860128213271601272132706012921327259934212272))
 (.node 1 (.leaf 6013021327360131213274601342132775993921227760135213278599402122786013621327960328214280601372132806013821328160139213383000000000006014021338459947212384601412133855994821238560142213386599482123856014321338760333214386601442133886014521338960148213392603392143926015321339760344214397601552133996015621340060161213405603522144056016221340660163213407601652134096035621440960167213411601662134106016821341259975212412601692134136035921441260170213414599772124146017121341560172213416601742134186017321341760177213421599842124216017821342260179213423601832134276018421342860187213431601862134306018821343260380214433601902134346038221443560191213435603822144356019821345060197213449601992134516000821245260202213454600092124536020421345660011212455602052134576039721445860206213458602072134596020821346000000000000602092134790000000000060210213604000000000006021121360500000000000602122136060000000000060215213609602142136086021721361160216213610602192136136002621261460220213614600262126146022221361660223213617602242136186002921261760225213619600312126196022621362060227213621602302136246042021462560231213625604212146266023221362660421214626602332136276042121462660234213628604222146276023521362960423214628602362136306023721363160241213635000000000006024421363800000000000602452136390000000000060250213646602492136456025221364860251213647602542136506025321364960255213651000000000006025621365200000000000)
 (.leaf 6025721369500000000000602582136960000000000060259213715000000000006026021371700000000000602612137180000000000060262213719000000000006026321406000000000000602652142176045221521760266214218604522152176026721421960453215218602682142206026921422160271214223604582152236027221422460459215224602732142256046021522560274214226600832132266027521422760084213227602762142286008621322960277214229600872132306028721423960473215238602882142406009821324160289214241602902142426029221424460479215244603002142526029921425160302214254601112132546030321425560491215256603042142566049121525660305214257603062142586031221426460499215264603172142696012621326960320214272603192142716032421427660133213276603252142776051221527760326214278605132152786032721427960515215280603372143906052521539160342214395605302153966034521439860532215398603472144006053421540060348214401603492144026035421440760355214408603582144116054421541060360214413605482154146036121441460362214415603662144196017521341960368214421603692144226037121442460181213425603742144276018421342860375214428601852134296037821443160566215432603792144326056621543260383214436000000000006038521444500000000000603862144470000000000060388214449603872144486038921445060197213449603902144516020021345260395214456603962144576039921460400000000000604002146056040121460660405214610604042146096040621461160591215612604082146136040721461260409214614602212136156041021461560411214616)))
 (.node 2 (.node 1 (.leaf 6041421461960413214618604152146206041621462160418214623604192146246042521463060424214629604262146316023721363160427214632602382136326042821463360239213633604292146346024021363460430214635602422136366043121463660242213636604322146376024321363760433214638000000000006043421463900000000000604362146426043521464160437214643602472136436044021464660439214645604442146506044321464960445214651000000000006044621465200000000000604472147150000000000060448214716000000000006044921471700000000000604502150600000000000060451215061000000000006045421521960643216218604552152206064421621960456215221602692142216045721522260458215223604612152266046221522760463215228604642152296046521523060278214230604662152316027921423160470215235602832142356047421523960473215238604752152406047621524160481215246604802152456048221524760294214246604832152486029621424860486215251604852152506048721525260676216251604882152536030121425360489215254604902152556049221525760493215258604982152636068821626360500215265606902162656050621527160319214271605072152726032121427360508215273605092152746051021527560323214275605112152766051221527760518215384605172153836051921538560331214384605202153866070921638660521215387603332143866052221538860334214387605232153896052421539060529215395605282153946053721540360538215404605412154076073021640760547215413605482154146054921541560362214415605512154176036321441660556215422603702144236055721542360370214423)
 (.leaf 6056021542660749216426605612154276075121642860562215428607522164296056321542960564215430605652154316075421643160569215435000000000006057021544700000000000605732154506057221544960575215452603922144536057821545560394214455605792154566039621445760580215457607682164586058121545800000000000605822154590000000000060584215605605832156046058521560660586215607605872156086077421660860588215609607742166086058921561060404214609605922156136077821661260593215614607792166136059421561560595215616605972156186041321461860598215619607842166186059921562060600215621606012156226041721462260602215623606032156246060721562860606215627606082156296079621663060609215630607962166306061121563260610215631606122156336079821663260623215644606222156436062821564960627215648606292156506081721665160630215651606312156526063221569600000000000606332157140000000000060634215715608192167146063521571660822216717606362157170000000000060637216002000000000006063821603300000000000606392160770000000000060640216078000000000006064121608600000000000606422160870000000000060645216220606442162196064621622160833217222606472162226083421722360648216223608342172236064921622460835217224606512162266065021622560652216227608392172286065621623160467215232606572162326065821623360663216238606622162376066421623960665216240606672162426047721524260668216243604782152436067021624560669216244606782162536067721625260679216254606802162556068321625860869217258))
 (.node 1 (.leaf 6069121626660501215266606922162676050221526760693216268605032152686069521627060504215269606972162726069621627160698216273606992162746070121627660887217276607022162776070321627860704216279607052162806070721638460706216383607082163856089221738460710216387607092163866071121638860712216389607162163936071521639260720216397607192163966072121639860532215398607242164016072521640260727216404609122174046072821640560729216406607332164106073221640960734216411607352164126073821641560737216414607402164176073921641660744216421607432164206074521642260555215421607462164236093121742360747216424605582154246074821642560559215425607502164276093621742860753216430609392174316075621643300000000000607572164470000000000060758216448000000000006075921644960572215449607602164506094321745060761216451605742154516076221645260574215451607642164546057621545360766216456609492174566076721645760950217457607692166030000000000060771216605607702166046077221660660586215607607802166146077921661360781216615607822166166078521661960784216618607862166206078721662160793216627607922166266079421662860795216629607972166316079621663060799216633607982166326080021663460613215634608012166356061421563560802216636608032166376080621664060619215640608102166446080921664360811216645606242156456081321664760625215646608152166496081421664860816216650608172166516081821665200000000000608202167150000000000060821216716000000000006082321671800000000000)
 (.leaf 6082421701100000000000608252170120000000000060826217020000000000006082721704000000000000608282170860000000000060829217087000000000006083221722160831217220608372172266083621722560838217227608392172286084321723260844217233608452172346066021623560847217236606622162376084821723760662216237608492172386066221623760850217239608512172406085421724360855217244608592172486085821724760860217249610352182496086321725260862217251608642172536104021825460865217254608662172556087321726260872217261608752172646068921626460876217265606892162646087821726760879217268608842172736105921827360885217274608862172756088821727760889217278608942173866089321738560895217387610692183876089621738861070218388608972173896089821739060906217398609052173976090821740060909217401609132174056091421740660918217410609172174096091921741160920217412609212174136073621641360926217418609252174176092921742160928217420609302174226093121742360933217425609322174246093821743060939217431609422174496094121744860945217452609442174516094621745361118218452609482174556076521645560953217604609522176036095421760561128218605609552176066095621760760957217608607732166076095821760960775216609609632176146096221761360964217615611382186156096821761960967217618609692176206097021762160976217627609752176266097721762860978217629609832176346098221763360984217635609852176366098921764060805216639609922176436080821664260994217645609932176446099621764760995217646)))))
 (.node 8 (.node 4 (.node 2 (.node 1 (.leaf 6099821764960999217650610002176516099921765061002217653000000000006100321769800000000000610042180200000000000061007218221610062182206100821822261009218223610132182276101421822861019218233610202182346102221823661023218237610252182396120721924061026218240610272182416103021824461210219243610342182486103321824761036218250610352182496103721825160862217251610382182526122021925361039218253612202192536104121825561222219255610452182596104421825861049218263610482182626105221826661051218265610532182676087721726661054218268610552182696105821827260883217272610622182766106321827761066218280000000000006107121838960898217390610722183906089821739061073218391608992173916107621839461075218393610772183956090321739561078218396609042173966107921839760904217396610812183996108221840061092218410610912184096109321841161274219411610942184126127421941161096218414610952184136109921841761098218416611012184196092721741961103218421611022184206110421842261286219423611072184256128721942461108218426612902194276110921842761290219427611122184300000000000061113218431000000000006111721845161296219450611192184536111821845261120218454609472174546112121845560947217454611232184576112421845861129218606611282186056113221860961131218608611332186106095921761061134218611609602176116113621861361135218612611372186146113821861561141218618611402186176114221861961325219618611432186206114421862161151218628609782176296115721863461156218633)
 (.leaf 6115821863561343219636611592186366116021863761161218638609882176396116921864661168218645611702186476099521764661171218648609972176486117221864961173218650611752186526135921965261176218653000000000006117821865500000000000611792186980000000000061180218716000000000006118121871900000000000611822190110000000000061183219045000000000006118421906900000000000611852190700000000000061186219219000000000006118721922061367220219611882192216136822022061189219222610092182236119021922361009218223611912192246137222022461192219225613722202246119321922661012218226611942192276137622022861195219228610142182286119621922961015218229611982192316101721823161199219232610182182326120021923361201219234612022192356102121823561203219236612042192376121621924961215219248612172192506139722024961218219251612192192526122121925461222219255612232192566140522025761229219262614102202626123021926361411220263612312192646141222026461233219266612322192656123421926761235219268612452192786106421827861246219279000000000006124921938600000000000612502193876143022038761251219388610702183886125421939161253219390612552193926107421839261257219394612562193936125821939561259219396612612193986108021839861262219399614432204006126321940061264219401612712194086145122040861273219410612722194096127521941261455220412612792194166127821941561280219417610982184166128121941861100218418612822194196146322042061283219420614642204216128421942161465220422))
 (.node 1 (.leaf 6128521942261286219423612882194256128721942461289219426612902194276129321943000000000000612992194536129821945261300219454613012194556130421948600000000000613052195980000000000061306219599000000000006132021961361507220614613262196196132521961861329219622611462186236133021962361146218623613332196266114921862661335219628611522186296133621962961152218629613372196306115321863061338219631615242206316133921963261524220631613402196336152722063461341219634615272206346134221963561528220635613442196376116021863761345219638611622186396134621963961347219640613502196436116521864261352219645613512196446135321964661539220646613552196486135421964761356219649611732186506135721965061358219651613602196536117721865461364219657000000000006136521969800000000000613662200450000000000061369220221613682202206137022022200000000000613712202236137222022461374220226613732202256137522022761376220228613772202296156722122961379220231613802202326138222023461383220235613842202366138522023761394220246613932202456139822025061397220249613992202516140022025261402220254615922212546140422025661405220257614062202586140522025761407220259612262192596141522026761416220268614172202696123621926961420220272612392192726142122027361240219273614232202756124221927561424220276612432192766142522027761244219277614262202786142722027961428220301000000000006143322039061622221390614362203936143522039261437220394614382203956144022039761260219397)
 (.leaf 6144822040561637221405614522204096164122140961453220410616422214106145622041361455220412614572204146127621941361458220415612772194146145922041661278219415614602204176146122041861462220419616522214206146622042361467220424614682204256146922042661471220428614722204296147522045061474220449614802204556147922045461481220456614822204576148322047400000000000614842204750000000000061485220591000000000006148622059300000000000614872205940000000000061488220595000000000006149222059961491220598614932206006130721960061494220601613082196016149522060261309219602614982206056131221960561501220608615002206076150422061161503220610615062206136150722061461508220615615072206146151022061761509220616615112206186170622161861516220623613312196246151822062561332219625615222206296152322063061526220633615272206346153122063861530220637615382206456153722064461540220647617342216466154122064861735221647615422206496173722164961543220650613582196516154422065161740221652615452206526154622065361548220655615472206546155022065700000000000615512206580000000000061552220688000000000006155322068900000000000615542206990000000000061555221002000000000006155622108200000000000615572212190000000000061559221221615582212206156022122200000000000615612212230000000000061562221224000000000006156522122761566221228615702212326176722223261571221233617682222336157222123461770222235615732212356177122223661584221246615832212456158622124861396220248)))
 (.node 2 (.node 1 (.leaf 6158722124961397220249615882212506178622225161589221251617872222526159722125961794222259615982212606179422225961600221262615992212616160322126561602221264616072212696160622126861608221270618042222696160922127161418220270616102212726141922027161611221273614222202746161222127461422220274616132212756161422127661615221277616162212786161722130100000000000616202213886181422238761624221392616232213916162522139361626221394616282213966143922039661629221397614412203986163822140661639221407616452214136164422141261646221414618412224146164722141561842222415616482214166184322241661649221417618442224176165122141961847222420616552214236185022242361657221425616582214266165922142761660221428616662214506147422044961667221451614762204516166922145361477220452616702214546167122145561672221456616732214576167422147000000000000616752214710000000000061676221474000000000006167722147500000000000616782215900000000000061679221591000000000006168122159300000000000616902216026168922160161691221603614962206036169522160761694221606616962216086150022060761697221609618892226096169922161161698221610617012216136170022161261704221616617032216156170522161761897222617617142216266151922062661718221630615232206306171922163161720221632617212216336172022163261722221634617232216356172422163661916222636617262216386172522163761727221639615322206396172822164061534220641617382216506193022265061739221651617402216526174322165561547220654)
 (.leaf 6174522165700000000000617462216580000000000061747221659000000000006174822168800000000000617492216890000000000061750221690000000000006175122169400000000000617522220090000000000061753222040000000000006175422221900000000000617562222216175522222061757222222619522232226175822222300000000000617592222246176022222561761222226615642212266176222222761763222228617652222306196022323061769222234619652232356178022224561779222244617812222466197522324561783222248615852212476178422224961979223249617852222506198122325161789222254617902222556179322225861596221258617962222616179522226061797222262615992212616180122226661604221266618022222676180322226861807222272618062222716180822227361809222274618102222756181122227661819222392618182223916182022239361821222394618222223956162722139561823222396618242223976182522239861826222399618292224026163522140361830222403616352214036183122240461832222405618402224136183922241261846222419620412234206185822244600000000000618602224486166322144761861222449616652214496186222245062056223450618692224700000000000061870222471000000000006187422259461682221594618752225956168322159561877222597616852215976188022260061687221599618872226076188622260661892222612618912226116189322261361700221612618942226146189522261561896222616618972226176189922261961898222618619002226206170822162061901222621617092216216190322262361711221623619062226266190722262761908222628617162216286190922262961717221629))
 (.node 1 (.leaf 6191022263061911222631619122226326172022163261917222637619162226366191822263862112223637619192226396211422363961920222640617292216416192122264161922222642619232226436173122164361924222644617312216436192522264561732221644619262226466173322164561927222647617342216466192822264862123223648619292226496212522365061931222651617402216526193222265261740221652619342226546193322265361935222655621292236546193622265661744221656619372226576193822265861939222659000000000006194022268900000000000619412226900000000000061942222691000000000006194322269400000000000619442226950000000000061945223043000000000006194622304400000000000619472230780000000000061948223082000000000006195122322161950223220619532232230000000000061954223224000000000006195622322661760222225619622232326215722423361963223233619642232346197622324662169224245619782232486197722324761990223260619892232596199322326361992223262619972232676199622326662000223270618052222706200122327161805222270620022232726200322327362009223388620082233876201122339062010223389620142233936201322339262015223394622072243936201622339562017223396620182233976201922339862020223399620212234006202522340462026223405620312234106183722241062033223412620322234116203422341362035223414620442234236204522342462046223425622402244266204822342761854222427620492234286185522242862050223429618572224306205222344600000000000620582234526205722345162059223453618642224526206022345461866222454)
 (.leaf 6206122345562062223456620632235880000000000062066223591618712225916206822359362067223592620712235966187622259662072223597618762225966207322359861878222598620742235996187922259962075223600618812226016207622360161882222602620792236046188422260462080223605618852226056208122360661886222606620832236086208222360762084223609618892226096208522361062281224610620882236136228422461362089223614618952226156209122361661897222617620922236176189722261762095223620620942236196209622362161902222622620982236236190222262262100223625619052226256210122362661907222627621032236286210222362762109223634623052246346211022363562306224635621132236386211222363762115223640623112246406211622364162312224641621172236426192222264262118223643621192236446212022364562316224645621222236476212122364662124223649623202246496212622365162127223652621302236556212922365462131223656623272246566213222365762328224657621332236580000000000062134223659000000000006213522366000000000000621362236900000000000062137223691000000000006213822369200000000000621392236930000000000062140223695000000000006214122369600000000000621422240570000000000062143224219000000000006214722422362146224222621482242240000000000062149224225619552232256215022422662151224227621532242296195922322962154224230623482252316215622423262157224233621592242356235322523662160224236623542252376216122423762162224238621642242406216522424162171224247621702242466217222424862173224249))))
 (.node 4 (.node 2 (.node 1 (.leaf 6217722425362370225253621802242566237322525662181224257623742252576218422426062183224259621852242616199122326162187224263619922232626218822426462381225264621912242676219022426662193224269621922242686219422427061999223269621982242746200422327462199224275620052232756220022427600000000000622012242770000000000062203224389622022243886220822439462209224395622122243986221322439962223224409622222244086222522441162224224410622262244126203222341162227224413624192254146222822441462419225414622292244156223022441662241224427624322254276224222442862433225428622432244296224422443062245224431000000000006224622444000000000000622472244460000000000062248224447620532234476224922444862054223448622502244496205422344862251224450620562234506225222445162441225450622542244536244422545362255224454622562244556225722445600000000000622582245870000000000062263224592622622245916226522459462264224593622662245956207022359562270224599622692245986227122460062272224601622742246036207822360362275224604622762246056228222461162281224610622852246146228422461362286224615620902236156228722461662288224617622922246216229122462062293224622620972236226229422462362483225623622952246246209922362462296224625620992236246229722462662102223627622982246276210222362762299224628621022236276230122463062106223631623022246316210722363262303224632623042246336230922463862497225637623132246426231222464162314224643625032256436231822464762317224646)
 (.leaf 6232222465162321224650623232246526232422465362326224655621292236546232922465862518225658623322246610000000000062333224692000000000006233422469300000000000623352250570000000000062336225219000000000006233722522000000000000623392252226233822522162340225223625302262236234122522400000000000623422252256253222622562343225226000000000006234422522762152224228623452252286253522622862346225229625362262296234722523062348225231623492252326235022523362364225247623632252466236522524862554226247623662252496236722525062368225251625592262526237922526262378225261623842252676238322526662385225268621922242686238822527100000000000623892252720000000000062390225273000000000006239122527400000000000623922252750000000000062396225391623952253906239722539262585226392623982253936258622639362399225394625872263946240022539562589226396624012253966240222539762403225398624042253996240522540062214224400624062254016221622440262407225402622172244036240822540362218224404624152254106241422540962416225411622242244106241722541262418225413624232254186242422541962425225420622342244206242622542162236224422624272254226261522642262429225424626172264246243422542962435225430624362254310000000000062438225447624372254466244022544962439225448624422254516262822645062443225452622532244526244522545462446225455624472255870000000000062448225588622592245886245022559062261224590624552255956245422559462456225596626432265966245722559762458225598))
 (.node 1 (.leaf 6246122560162460225600624632256036246422560462465225605622762246056246622560662467225607624712256116247022561062472225612626592266126247422561462473225613624762256166247522561562477225617622882246176247822561862288224617624872256276248622562662488225628623002246296248922562962490225630624922256326249322563362494225634624952256356249622563662497225637624982256386268622663962499225639626862266396250222564262503225643625052256456269222664562506225646623162246456250722564762694226647625082256486269422664762510225650625092256496251122565162321224650625122256526251322565362514225654623252246546251522565562703226656625162256566232822465762517225657625182256586251922565962330224659625202256606233122466062521225661000000000006252222606000000000000625232260610000000000062524226090000000000006252522621800000000000625262262190000000000062528226221625272262206252922622262714227222625312262246253022622362533226226627182272266253422622762719227227625372262306253822623162540226233625412262346254622623962732227240625552262486255422624762556226249627412272496255722625062742227250625632262566237322525662565226258623752252586257022626362569226262625732262666257222626562574226267625752262686257622626962575226268625772262700000000000062578226271000000000006257922627200000000000625802262730000000000062581226388000000000006258322639062582226389625882263956276822739562591226398627712273986259222639962404225399)
 (.leaf 6259322640062773227400625942264016277422740162595226402625962264036259722640462409225404625982264056241022540562599226406624112254066260022640762412225407626042264116260522641262609226416624212254166261122641862424225419626132264206279422742162614226421626152264226261822642562619226426626212264286262022642762622226429626232264306262422644600000000000626262264486280522744862627226449628052274486263422658700000000000626362265896263522658862637226590624492255896263822659162451225591626442265976282322759762645226598626462265996264722660062460225600626482266016246022560062649226602624622256026265022660362651226604626532266066265222660562656226609626552266086266322661662662226615626662266196266522661862667226620624802256206266822662162846227620626692266226248222562262670226623624832256236267122662462484225624626722266256248522562562674226627626732266266267522662862855227629626762266296285622763062677226630628572276316267822663162679226632626802266336285922763362683226636628612276356268422663762863227637626882266416286722764162689226642628682276426269122664462870227644626932266466287222764662697226650626962266496269822665162877227651626992266526251322565362701226654625132256536270222665562703226656627052266586270622665962709226662000000000006271022721800000000000627132272216271222722062716227224000000000006271722722562896228225627242272326290422823362727227235627282272366274022724862739227247)))
 (.node 2 (.node 1 (.leaf 6274522725362924228253627462272546256222625562749227257627502272586275322726162568226261627562272646275522726362757227265625712262646275822726662572226265627592272670000000000062760227268000000000006276122726900000000000627622273890000000000062764227391629402283906276522739262766227393627722273996294922839962775227402629522284026278122740862601226408627832274106260322641062784227411626052264126278522741262786227413627892274166260822641562791227418627922274196279322742062794227421627992274266297722842762801227428628002274276280222742962979228429628032274300000000000062807227450628062274496280822745162628226450628092274526263022645262810227453626312264536281122745462812227455628162275906281522758962819227593626402265936282022759462641226594628242275986300022859762825227599626462265996282622760062827227601628302276046265222660562831227605626522266056283422760862654226607628372276116265822661162842227616626642266176284322761762664226617628442276186266422661762849227623628482276226285022762463027228624628512276256302822862562852227626630292286266285322762762854227628628582276326303522863262862227636630392286366286422763862863227637628662276406286522763962871227645630472286446287422764862873227647628752276496305222864962878227652628772276516288022765462881227655628842276586270622665962886227660628852276596288722766162708226661628892276630000000000062890228219627112272196289222822162891228220)
 (.leaf 6289322822200000000000628942282236271522722362895228224000000000006289722822662718227226628982282276271922722762899228228630792292286290222823162903228232629122282416291322824262915228244629162282456292022824962919228248629212282506310222925162925228254629242282536292622825562747227255629272282566274822725662930228259627512272596293122826062752227260629322282616275222726062933228262627542272626293422826362755227263629362282656293522826462937228266000000000006293822826700000000000629412283916294022839062942228392631192293916295322840363132229404629542284046295522840562956228406627792274066295722840762780227407629592284096278222740962960228410627822274096296122841162962228412629662284166296522841562968228418629692284196297422842463153229425629762284266315422942662980228430000000000006298122844700000000000629822284486298322844962984228450631622294506298522845163164229452629872284536298622845262989228586000000000006299222858962991228588629932285906317122959062995228592631732295926299722859462996228593629982285956282122759563001228598630002285976300222859963181229600630032286006300422860163010228607628332276076301122860863012228609630132286106283622761063014228611630152286126301822861562841227615630192286166302022861763024228621630232286206302522862263203229622630262286236302722862463031228628630322286296304122863863219229638630432286406304222863963044228641632222296416304622864363224229643))
 (.node 1 (.leaf 6304822864563049228646630502286476304922864663055228652630542286516305622865362879227653630592286566288322765763061228658630622286596306422866163063228660630652286626288822766263066228663000000000006306722866400000000000630682286650000000000063070229219630692292186307122922000000000000630722292216289122822063073229222000000000006307422922300000000000630762292250000000000063077229226000000000006307822922763257230227630802292296308122923063082229231629032282326308322923262904228233630842292336308522923463089229238630902292396309822924763097229246630992292486291822824763100229249632792302496310122925063102229251631032292526310222925163104229253629242282536310622925563105229254631072292566310822925763109229258631102292596311122926063110229259631152292640000000000063120229392631192293916312422939663123229395631312294036330823040263136229408631352294076313722940962958228408631382294106313922941163141229413629632284136314322941563142229414631442294166314522941763147229419629692284196314922942162971228421631502294226315122942363152229424633312304256315622942800000000000631582294300000000000063159229447000000000006316322945163164229452631652294536298822845463166229454000000000006317422959363173229592631752295946334823059363176229595633492305946317722959663350230595631782295976335123059663179229598633532305986318022959963353230598631832296026318422960363186229605630092286066318822960763189229608)
 (.leaf 6319022960963012228609631912296106319222961163194229613630162286136319722961663020228617631982296176302022861763200229619630222286196320522962463204229623632062296256320722962663210229629632112296306322122964063395230640632252296446339923064463226229645632272296466322922964863228229647632302296496340423064963231229650630532286506323322965263232229651632342296536340823065363235229654630572286546323622965563409230654632372296566306022865763239229658630622286596324022965963062228659632422296616306322866063243229662634172306626324422966363245229664632462296650000000000063247229666000000000006324823009900000000000632512302216325023022063252230222000000000006325323022300000000000632542302246307522922463258230228632592302296326223023263437231233632632302336326423023463273230243632742302446327723024763276230246632782302486327923024963282230252634562312526328323025363457231253632842302546345823125463285230255631052292546328623025663459231255632872302576310822925763288230258631102292596328923025963110229259632902302606311222926163291230261631122292616329223026200000000000632932302630000000000063294230264000000000006329823039263297230391632992303936312122939363300230394633012303956330223039663474231395633052303996347823139963309230403633082304026331623041063315230409633172304116313922941163319230413631422294146332323041763146229418633252304196314822942063326230420633272304216333223042600000000000)))))))
 (.node 32 (.node 16 (.node 8 (.node 4 (.node 2 (.node 1 (.leaf 6333623045063337230451633392304530000000000063340230454000000000006334123058600000000000633432305886334223058763344230589635102315886334723059263346230591633542305996352223160063355230600635222316006335623060163523231601633572306026352523160363358230603633592306046336023060563361230606633622306076336123060663363230608635302316086336423060963531231609633652306106336623061163369230614631952296146337223061763371230616633732306186319922961863374230619632012296206337523062063202229621633762306216320222962163377230622632032296226338423062963551231629633852306306338623063163393230638635592316376339423063963395230640633982306436339723064263403230648634022306476340523065063571231649634062306516357323165163407230652635742316526341023065563577231655634112306566357823165663412230657632382296576341323065863581231659634142306596358123165963416230661634172306626341923066463420230665634212306660000000000063425231221634242312206342623122200000000000634272312230000000000063428231224635942322236342923122563596232225634302312266325623022663433231229634342312306343523123163603232232634382312346343923123563445231241636132322426344623124263614232243634492312456344823124463451231247634502312466345223124863453231249634602312566345923125563461231257636272322566346223125863629232258634652312616346423126063466231262000000000006346723126300000000000634712313926347023139163472231393636392323946347323139463474231395)
 (.leaf 6347523139663474231395634762313976347723139863482231403634832314046349023141163489231410634912314126331823041263492231413633202304146349323141463321230415634942314156332123041563495231416633222304166350323142463669232424635052314500000000000063506231451000000000006350723158500000000000635082315860000000000063509231587000000000006351523159363514231592635202315986351923159763521231599635222316006352423160263688232603635272316056369023260563528231606636902326056352923160763361230606635322316106369523261063533231611633662306116353423161263697232612635352316136336823061363536231614636992326146353723161563700232615635382316166370023261563541231619635402316186354223162063706232621635432316216354423162263545231623633782306236354623162463379230624635472316256338023062563548231626633812306266354923162763383230628635502316286355123162963563231641635622316406356423164263397230642635652316436372823264363569231647637312326466357023164863733232648635722316506373623265163576231654635752316536357923165763580231658635822316606341523066063583231661635842316626358623166463587231665635882316660000000000063592232221635912322206359323222200000000000635952322240000000000063597232226637602332266359823222763761233227636002322296376323322963601232230636022322316360423223363768233234636072322366377123323763608232237637722332386361023223963774233240636152322446361423224363616232245637782332446361823224763781233247))
 (.node 1 (.leaf 6361923224863781233247636202322496378323324963622232251636212322506362323225263456231252636242322536378723325363626232255636252322546363223226163631232260636332322620000000000063634232389000000000006363823239363639232394636412323966364023239563642232397638042333976364323239863644232399636472324026364623240163648232403638102334036365223240763651232406636532324086348723140863655232410636542324096365723241263656232411636582324136382023341363659232414638212334146366023241563822233415636612324166382223341563662232417634962314176366323241863497231418636642324196349823141963665232420634992314206366623242163829233422636672324226366823242363671232586000000000006367223258700000000000636772325926367623259163680232595636792325946368323259863682232597636842325996384723360063685232600638472336006368623260163523231601636872326026368823260363692232607636932326086369623261163859233612636982326136385923361263701232616637002326156370223261763864233617637042326196370323261863705232620637062326216370723262263869233622637082326236387023362363709232624638712336246371023262563711232626637122326276387523362863713232628637142326296371523263063716232631637242326396388623363963725232640638872336406372623264163887233640637272326426389023364363730232645638912336446373223264763731232646637342326496389523364863735232650638972336506373923265463738232653637412326566390323365663742232657639042336576374323265863581231659)
 (.leaf 6374423265963581231659637452326606390723366063746232661635842316626374723266263585231663637492326646358723166563751232666000000000006375423322063753233219637552332210000000000063756233222000000000006375723322300000000000637582332240000000000063759233225000000000006376223322863926234229637642332306376523323163767233233639302342336376923323563770233236637822332486394523424863785233251637842332506378623325263949234252637902332566378923325563791233257639542342576379223325863629232258637932332596379423326063798233391637972333906379923339263637232392638002333936396423439463805233398638042333976380623339963807233400638142334076381323340663815233408639792344096381623340963979234409638172334106398023441063819233412639822344126382723342063826233419638282334216382923342263832233425000000000006383323358600000000000638352335886383423358763837233590638362335896383823359163675232590638412335946384023359363842233595636792325946384523359863844233597638462335996384723360063849233602636882326036385023360363689232604638512336046368923260463852233605638532336066385423360763853233606638552336086401723460863856233609638572336106386023361364022234613638612336146386223361563863233616638622336156386723362063866233619638722336256403523462663878233631638792336326388923364263888233641638922336456389123364463893233646640552346466389423364763731232646638962336496389523364863898233651640602346516390123365464063234654)))
 (.node 2 (.node 1 (.leaf 6390223365563903233656639052336586406723465863906233659640682346596390923366263908233661639102336636374823266363911233664640742346656391223366563750232665639132336660000000000063914234141000000000006391723422063916234219639182342216408223522163919234222640832352226392023422364084235223639222342256392123422463924234227637612332276392523422863926234229639272342306409223523163932234235640962352356393323423664097235236639342342376409823523763935234238639362342396394623424963945234248639472342506411123525063956234259639552342586395723426063795233261639582342616379623326263963234393639622343926396623439663965234395639672343976413123539763968234398639692343996397423440463973234403639772344076397623440663978234408639792344096398123441164145235411639852344156398423441463989234419639882344186399023442063991234421639952344250000000000063996234587000000000006399723458864160235588639982345896416023558864003234594640022345936400423459564167235595640052345966416823559664008234599640072345986400923460064173235601640102346016401123460264012234603641752356036401323460464014234605640182346096401923461064025234616641882356166402823461964027234618640292346206419223562064030234621640312346226403223462364033234624640342346256419723562564036234627641992356276404723463864046234637640502346416404923464064051234642642142356426405323464464215235643640562346476421923564764058234649642222356506406123465264224235652)
 (.leaf 6406223465364225235653640642346556422623565464069234660640682346596407023466163908233661640722346636407123466264073234664640742346656407623466700000000000640772350710000000000064086235225642492362266408823522764250236227640892352286409023522964099235238642612362386410023523964262236239641042352436410323524264105235244642662362436410623524564268236245641072352466426823624564108235247642702362476410923524863945234248641122352516394823425164113235252639492342526411623525564115235254641212352606412023525964122235261639592342626412323526200000000000641242353900000000000064127235393641262353926413023539664290236395641352354016429523640064136235402642962364016413723540363972234402641382354046397323440364140235406641392354056414123540763976234406641422354086430323640864147235413639832344136414923541564148235414641522354186415123541764153235419641542354206415523542164317236422641562354226431823642364157235423641582354246416223559063999234590641632355916432423659164164235592643242365916416523559364326236593641662355946432723659464171235599641702355986417223560064333236600641762356046433723660464177235605643382366056417823560664015234606641792356076401623460764180235608640162346076418123560964342236609641822356106434323661064183235611641842356126418523561364346236613641862356146434723661464191235619641922356206419323562164194235622641952356236435623662364200235628642012356296420423563264205235633))
 (.node 1 (.leaf 6420923563764208235636642182356466421723564564221235649643822366496422723565564387236654642322356606423123565964233235661643932366606423523566364234235662642362356646423723566564239235667000000000006424123621864240236217642422362196407923521864243236220640802352196424423622164405237221642452362226440723722364246236223644072372236425123622864412237228642522362296441423723064253236230644152372316425523623264417237233642752362526427423625164276236253644372372536427723625464114235253642782362556411723525664279236256641172352566428023625764441237257642832362606428223625964284236261642852362626428623639100000000000642872363920000000000064291236396644502373956429223639764452237397642932363986445323739864299236404642982364036430023640564460237405643012364066446023740564302236407644632374086430623641164305236410643102364156430923641464311236416641502354166431323641864312236417643142364196447523742064322236589643212365886432523659264483237592643302365976432923659664331236598643322365996433523660264493237602643392366066449723760664340236607643412366086435023661764508237617643522366196435323662064359236626643602366276436123662864362236629643692366366436823663564370236637645282376376437223663964371236638643752366426437423664164377236644642152356436437823664564536237645643802366476437923664664381236648645392376486438823665564387236654643912366586439023665764392236659645492376586439423666164393236660)
 (.leaf 6439523666264552237661643972366646439623666364398236665642382356666439923666664400236667644042372206440323721964406237222645652382226440823722464248236225644092372256456823822564411237227645712382286441323722964414237230644282372446458723824464429237245645872382446443323724964432237248644342372506427223624964435237251642732362506443623725264274236251644382372546443723725364439237255645992382566444023725664599238256644442372606460323826064445237261000000000006444623726200000000000644482373930000000000064454237399642942363996445523740064295236400644612374066461723840664462237407646182384076446923741464468237413644712374166447023741564472237417646282384176447323741864474237419644772374226447823742364482237591644812375906448723759664642238596644882375976448923759864491237600644922376016449623760564497237606645012376106465623861064503237612646582386126450423761364659238613645052376146466023861464510237619645092376186451123762064666238620645132376226451423762364516237625645172376266451923762864674238628645202376296452123763064523237632645242376336452523763464367236634645292376386468523863964530237639646852386396453323764264532237641645342376436437623664364535237644646902386446453823764764693238647645412376506469523864964548237657647032386576455423766364708238662645552376646471123866564556237665645572376666455923800400000000000645612382186456023821764562238219644032372196456723822464568238225))))
 (.node 4 (.node 2 (.node 1 (.leaf 6457223822964573238230645752382326457623823364582238239647372392396458623824364585238242645882382456458723824464592238249645912382486459323825064747239249645942382516474823925064595238252647492392516459723825464596238253645982382556459923825664601238258646002382576460223825964443237259646052383946460423839364606238395644502373956460923839864453237398646102383996445323739864614238403646132384026461623840564615238404646222384116446623741164623238412644672374126462423841364467237412646272384166478023941664629238418646282384176463023841964475237420646312384206447623742164632238421646332384226463423842300000000000646372385916463623859064643238597646442385986465223860664498237607646532386076449823760764654238608644992376086466223861664661238615646652386196481723962064668238622646672386216467123862564823239626646732386276482423962764675238629648252396286467623863064522237631646772386316452223763164678238632646792386336468223863664681238635646832386376468423863864686238640646852386396468723864164838239641646882386426483823964164689238643646902386446469623865064695238649647012386556485123965464702238656648532396566470923866364708238662647102386646471123866564712238666000000000006471323866700000000000647142386950000000000064717239219647162392186471823922064563238220647202392226472123922364722239224647212392236472623922864727239229647292392316457423823164730239232647312392336473323923564883240235)
 (.leaf 6473423923664735239237647412392436474023924264745239247645892382466475023925264751239253647522392546490324025564753239255647542392566475723925964756239258647612393976460823839764762239398646082383976476323939964912240398647642394006461123840064768239404647672394036477123940764618238407647762394126477523941164779239415649282404146478223941864933240419647832394196493424042064784239420647852394216478823959164787239590647892395926493824059264790239593646392385936479123959464940240594647932395966479223959564794239597649432405976479523959864944240598647962395996464523859964798239601646482386026480423960764954240608648052396086495424060864806239609649552406096480923961264658238612648102396136465823861264811239614649602406146481223961564661238615648132396166496324061764814239617648152396186481623961964966240620648182396216496724062164819239622649682406226482023962364969240623648262396296482523962864827239630648282396316483023963364680238634648312396346468023863464832239635646812386356483523963864685238639648362396396483723964064839239642648382396416484023964364841239644648422396456484123964464843239646646922386466484423964764845239648648462396496499424064864852239655650002406546485723966064856239659648602396636485923966264864240216000000000006486524021700000000000648672402196471623921864868240220648692402216487224022465022241225648732402256487424022664875240227647252392276487824023064728239230))
 (.node 1 (.leaf 6487924023164880240232648842402366488524023764890240242648892402416489124024365041241244648952402476489424024664896240248647462392486489724024964746239248648992402516490024025264901240253649022402546490424025664754239256649062402586505524125864907240259000000000006490924039564908240394649102403966476023939664911240397650602413976491324039965061241398649142404006491524040164918240404649172404036491924040564920240406649222404086492124040764925240411647752394116493124041765081241418649322404186508124141864936240590000000000006493724059165087241592649392405936494024059464941240595649402405946494224059664792239595649452405996509324159864946240600647972396006494724060164799239602649482406026479923960264949240603650992416046495024060465099241604649532406076495424060864957240611651062416116495824061265107241612649592406136510824161364961240615651102416156496224061665111241616649702406246512024162564971240625651202416256497524062965123241628649762406306512524163064977240631649782406326498124063565130241635649822406366483323963664983240637648342396376498424063864985240639649882406426498724064164990240644648412396446499224064664991240645649932406476514324164864995240649651432416486500624066065005240659650072406616515624166165008240662648582396616500924066365159241664650102406646486123966465011240665648612396646501224066600000000000650152412186501424121765016241219648662402186501724122065167242221)
 (.leaf 6501824122164869240221650232412266487424022665024241227650252412286502724123064877240229650282412316502924123265033241236650342412376503824124165186242240650392412426504024124365042241245650412412446504324124664893240245650452412486504424124765046241249648982402506504824125165047241250650492412526505024125365053241256652022422566505624125900000000000650572413940000000000065059241396650582413956506224139965061241398650642414016491524040165065241402649162404026506624140364917240403650672414046491724040365068241405650692414066507124140865070241407650782414156507724141465079241416650802414176508224141965230242420650842414210000000000065086241591650852415906508824159365087241592650892415946523524259465090241595652372425966509124159665237242596650952416006509424159965096241601650972416026510524161065252242611651132416186511424161965115241620651162416216511824162365263242622651192416246512024162565121241626652672426266512424162965123241628651262416316512524163065127241632651282416336513224163765131241636651332416386513424163965136241641651352416406513724164264989240643651392416446513824164365140241645649912406456514124164665288242647651422416476528924264865145241650651442416496515224165765002240656651532416586500324065765154241659650052406596515724166265156241661651582416636515924166465161241666000000000006516224221600000000000651642422186516324221765165242219653122432196516624222065167242221)))
 (.node 2 (.node 1 (.leaf 6516924222300000000000651722422266531824322565173242227651742422286517524222965026241229651762422306517724223165181242235650322412356518224223665183242237651932422476519224224665194242248653412432486519524224965341243248651962422506504724125065197242251653442432516519824225265050241253651992422536505024125365200242254650512412546520124225565202242256652042422580000000000065206242396652052423956520924239965208242398652132424036535824340365214242404653582434036521524240565216242406652172424076521624240665220242410653652434106522124241165365243410652222424126507524141265223242413650772414146522424241465077241414652252424156537124341665226242416652272424176522924241900000000000652362425956523724259665238242597652372425966524224260165241242600652432426026509724160265244242603652452426046525124261065395243610652592426186540324361865261242620654052436206526424262365263242622652652426246526624262565272242631652732426326527524263465420243635652772426366527624263565278242637652792426386528324264265282242641652842426436513824164365285242644654292436446528624264565431243646652872426466543124364665290242649652892426486529124265065144241649652932426526514724165265294242653651482416536529924265865443243658653002426596515524166065301242660651552416606530324266265156241661653042426636515924166465305242664653062426656530724266600000000000653082426780000000000065311243218653102432176531524322265316243223)
 (.leaf 6532024322765321243228653232432306532424323165328243235654712442356532924323665330243237653332432406533424324165335243242653342432416533924324665338243245653402432476519224224665342243249654852442496534524325265488244252653462432536534724325465350243257000000000006535424339965494244398653572434026521224240265359243404653582434036536024340565502244406653612434066550324440765362243407655032444076536324340865218242408653642434096550524440965366243411655072444116536724341265507244411653682434136536924341465370243415655112444156537224341765373243418653752435900000000000065379243594653782435936538224359765381243596653832435986523924259865384243599652402425996538724360265386243601653912436066539224360765398243613655382446136539924361465539244614654002436156554024461565404243619000000000006540824362300000000000654092436246554224462465415243630652712426306541624363165417243632654212436366542024363565422243637654232436386542724364265426243641654282436436556224464465430243645655632446456543324364865432243647654362436516543524365065437243652652922426516544124365665297242656654442436596544324365865445243660655782446606544624366165302242661654472436626557924466165448243663654492436646545124366600000000000654522436780000000000065454244218654532442176545524421965456244220654572442216558924522165458244222654592442236546324422765462244226654662442306546724423165470244234654712442356547224423665473244237))
 (.node 1 (.leaf 6547524423965607245239654762442406560824524065478244242656102452426548224424665481244245654832442476561424524665484244248656162452486548724425165620245252654892442536549024425465492244396000000000006549624440065355243400654972444016535624340165498244402653562434016549924440365631245403655002444046563224540465501244405656332454056550424440865505244409655062444106550724441165508244412655092444136551224441665644245416655142444180000000000065515244590000000000006551624459100000000000655172445926537624359165518244593653782435936552024459565519244594655232445986552224459765524244599656542455996552724460265528244603655292446046552824460365530244605653902436056553124460665662245607655322446076553324460865535244610656652456106554124461600000000000655442446260000000000065548244630655472446296554924463165550244632655512446336541824363365552244634656762456356555524463765423243638655572446396542424363965558244640654252436406555924464165426243641655602446426568324564265561244643656852456446556824465065691245650655702446526556924465165571244653654382436536557224465465439243654655772446596557624465865581244663657042456636558224466400000000000655832446650000000000065587245219655862452186559224522465593245225655952452276559424522665596245228654642442286559724522965465244229655982452306572124623165599245231656002452326561224524465611245243656132452456573424624465618245250656172452496561924525165742246252)
 (.leaf 6562324539500000000000656262453986549324439765628245400654952443996562924540165751246401656302454026575324640365636245408656372454096563824541065760246410656402454126576324641365641245413657632464136564224541465764246414656432454150000000000065645245417000000000006564824559365647245592656492455946551924459465650245595655192445946565224559765651245596656532455986565424559965655245600655262446016565624560165526244601656572456026552624460165658245603655282446036565924560465779246604656602456056566124560665666245611000000000006566724562600000000000656682456270000000000065670245629656692456286567124563065786246630656722456316578724663165673245632655502446326567424563300000000000656752456346579024663465677245636655542446366567824563765556244638656792456386568024563965681245640657962466406568224564165797246641656842456436579924664365687245646656862456456568824564765802246646656892456486580424664865690245649658052466496569224565165807246651656932456526580824665265694245653658092466536569524565465809246653656962456556581024665465697245656655732446556569824565765575244657657002456596569924565865701245660655782446606570224566165817246661657052456640000000000065706246216000000000006570724621765822247217657092462196570824621865710246220655882452206571124622165712246222657172462276571624622665718246228658332472286571924622965835247230657202462306583624723165725246235656042452366572624623665604245236)))))
 (.node 8 (.node 4 (.node 2 (.node 1 (.leaf 6572724623765728246238657322462426573324624365739246249657382462486574024625065741246251657442462540000000000065745246395000000000006574624639600000000000657472463976562524539765748246398658612473986574924639965627245399657502464006586324740065752246402657532464036575424640465753246403657562464066575524640565761246411658752474126576524641500000000000657672465926576624659165771246596658852475976577224659765885247597657732465986588624759865775246600658892476016577624660165890247602657772466026589024760265778246603657792466046578024660565781246606657822466076578124660665784246628000000000006578524662900000000000657882466326578724663165789246633659012476336579324663765792246636657942466386590724763965795246639659072476396579824664265909247641658012466456580024664465806246650658052466496581324665765812246656658152466596569924565865816246660658172466616581924666300000000000658202472020000000000065824247219658232472186582524722065826247221658272472226571224622265828247223658292472246583224722765831247226658392472346594924823465840247235659502482356584124723665842247237658442472396572924623965845247240658462472416584924724465848247243658502472456573524624565851247246659612482466585224724765737246247658532472486573724624765854247249658552472506585824725300000000000658602473976585924739665868247405000000000006586924740665755246405658702474070000000000065871247408658722474096587624741300000000000)
 (.leaf 6587724741400000000000658782475900000000000065882247594658812475936588324759565770246595658842475966599024859665887247599000000000006589124760300000000000658932476050000000000065895247607000000000006589624760800000000000658972476290000000000065899247631658982476306590024763265901247633659022476340000000000065903247635000000000006590424763665792246636659062476386590524763765910247642659092476416591624764865915247647659192476516591824765065920247652660182486516592124765366020248653659232476556581124665565924247656658122466566592724765965814246658659282476606592924766165934248219659332482186593524822066036249221659362482216582624722165937248222659382482236594224822765941248226659432482286594424822965948248233660482492336595124823665952248237659532482386595424823965956248241659572482426595924824400000000000659602482450000000000065964248249659632482486596524825065856247251659662482516585724725265967248252000000000006596824839600000000000659692483970000000000065970248398000000000006597124839965972248400659742484020000000000065976248404000000000006597724840500000000000659782484060000000000065979248407000000000006598024840800000000000659812484090000000000065982248410000000000006598324841100000000000659852485910000000000065987248593659862485926598824859466072249593659892485956607424959565994248604000000000006599524860500000000000659962486060000000000065997248607000000000006599824863000000000000))
 (.node 1 (.leaf 6599924863166000248632660012486330000000000066002248635000000000006600424863766003248636660052486386600624863966017248650660162486496602124865466020248653660232486566602224865566024248657659252476576602624865965926247658660272486606592924766166028248661659292476616602924866200000000000660342492196603324921866035249220661182502216604024922566041249226660422492276604124922666043249228660442492296605124923666133250236660552492406613725024066056249241659572482426605724924266058249243660592492440000000000066060249245000000000006606124924600000000000660632492480000000000066064249249000000000006606524925000000000000660662492510000000000066067249398000000000006606824939900000000000660692494000000000000066070249591000000000006607324959466146250594660752495960000000000066076249597000000000006607724959800000000000660782496300000000000066079249631000000000006608024963200000000000660812496340000000000066082249635000000000006608424963766083249636660872496406615625063966088249641660082486416609524964866094249647661022496556617225065566105249658660252486586610624965966107249660661092496620000000000066110249705000000000006611124970600000000000661142502176611325021666115250218660322492176611625021966187251219661172502206618925122166120250223661212502246612225022566123250226661252502286612425022766126250229661272502306613525023866136250239661392502426621025124266140250243662122512446614125024400000000000)
 (.leaf 6614225024500000000000661432502490000000000066144250250000000000006614825059600000000000661492506320000000000066150250633000000000006615125063400000000000661522506350000000000066153250636000000000006615425063766218251637661582506416615725064066170250653661692506526617425065766104249657661772506600000000000066178250661000000000006617925070600000000000661802507070000000000066181250708000000000006618225121400000000000661832512156618425121666188251220661892512216619025122266189251221661912512236619225122466196251228661952512276619725122966198251230662142516330000000000066215251634000000000006621625163500000000000662172516360000000000066222251641662212516406622325164266159250642662302516496622925164866233251652662322516516623525165466234251653662372516566617325065666238251657663002526586624025165966176250659662412516600000000000066242251706000000000006624325170700000000000662442517080000000000066246252215662452522146624825221766247252216662492522186618625121866250252219663122532196625225222166189251221662532522226631625322366254252223662552522246625825222766257252226662592522286626025222966268252237662692522386627125224066272252241662782526330000000000066279252634000000000006628025263500000000000662842526426628325264166286252644662252516446628725264566226251645662932526516623125165066297252655662962526546629825265666236251655662992526576635825365766301252659663022526606630325270700000000000)))
 (.node 2 (.node 1 (.leaf 6630425270800000000000663052527090000000000066307253214663062532136631025321766309253216663112532186637225421866314253221663752542216631525322266316253223663172532246637925422566318253225663792542256632025322766381254227663212532286632225322966326253233662652522346632725323466266252235663332532406627225224166335253242663362532436633925324600000000000663402536390000000000066343253642663422536416634725364666288252646663492536486629025264866350253649662912526496635225365166292252650663532536526629425265266354253653662942526526635525365466296252654663562536556629625265466359253658663582536576636025365900000000000663612536600000000000066362253708000000000006636325370900000000000663642537100000000000066365253711000000000006636625421200000000000663672542130000000000066371254217663702542166637725422366378254224663822542286644325522866383254229663842542306638525423166386254232663882542340000000000066389254235663282532356639225423866331253238663932542396633225323966394254240663342532416639525424166334253241663962542426639725424366400254246000000000006640125433500000000000664042546416640325464066407254644664062546436640825464566345253644664092546466634625364566410254647663482536476641125464866348253647664122546496647125564966415254652664142546516641625465366417254654664182546556647725565566420254657664782556566642125465866422254659664232546600000000000066428255213664272552126642925521466368254214)
 (.leaf 6643225521766431255216664332552186649625621866434255219664352552206643625522166437255222664402552256644125522666444255229664452552306644725523266510256232664492552346644825523366450255235665122562346645125523666390254236664522552376639125423766453255238665162562386645425523966517256239664552552406651925624166456255241665192562416645725524266520256242664582552436645925524466461255515000000000006646225564000000000000664632556416652325664166466255644664652556436646725564566527256645664682556466652725664566469255647665292566476647025564866471255649664732556516647225565066474255652665352566536647525565366536256654664762556546653625665466479255657000000000006648025565800000000000664812556590000000000066482255660000000000006648325570900000000000664852557116642625471166486255712000000000006648825571500000000000664892557160000000000066490256212000000000006649125621300000000000664922562146654725721466494256216664932562156649925622166437255222665002562226643725522266501256223665022562246650525622766506256228665072562296656225722966508256230665092562316651125623300000000000665132562356656725723466514256236665702572376651525623766516256238665182562406657325724066521256243000000000006652225624400000000000665242566420000000000066525256643000000000006652625664400000000000665282566466657725764566531256649000000000006653325665166532256650665342566526653525665366538256709000000000006653925671066484255710))
 (.node 1 (.leaf 6654325671400000000000665442567156659425771566545256716000000000006654825721566547257214665492572166659825821566550257217664952562176655125721866497256219665522572196655325722066558257225000000000006656525723200000000000665692572360000000000066574257241000000000006657625724300000000000665782576460000000000066579257647000000000006658025764800000000000665812576490000000000066582257650000000000006658325765100000000000665842576520000000000066585257653000000000006658625765400000000000665872577080000000000066588257709000000000006658925771066627258710665922577136654225671366593257714666312587146659525771600000000000665992582166659825821566600258217666012582186660225821966603258220666042582216660525822266606258223666072582246661225822966613258230666142582316665325923266617258234666552592346661825823500000000000666192582360000000000066620258237000000000006662125865200000000000666222586530000000000066623258654000000000006662425870700000000000666252587080000000000066626258709666642597096662825871166590257711666292587126666725971266630258713666312587146663225871500000000000666332592120000000000066637259216666362592156663825921766639259218666402592196664125922066643259222666052582226664425922366645259224666482592276668526022866649259228666852602286665725964700000000000666582596480000000000066659259654000000000006666025965500000000000666612596560000000000066662259707000000000006666325970800000000000)
 (.leaf 6666625971166701260710666732602166667226021566674260217666752602186667726022066676260219666782602216664225922166679260222666802602236668326022666684260227666872602306668626022966690260233666912602346669226023500000000000666932603400000000000066694260647000000000006669526064800000000000666962606490000000000066697260650000000000006669826065500000000000666992606560000000000066700260657000000000006670326071266702260711667042607130000000000066705261212000000000006670826121566707261214667092612166674726221766713261220667142612216671526122266716261223667202612276672126122866722261229666862602296672326123000000000000667242612310000000000066725261232667612622326672926164900000000000667302616500000000000066731261651000000000006673226165300000000000667332616540000000000066735261656000000000006673626170400000000000667372617050000000000066738261709000000000006674026171166778262710667412617120000000000066742262212000000000006674426221466743262213667452622156678326321466746262216667472622176674826221866711261218667492622196671226121966753262223667542622246675526222566719261226667562622266671926122666757262227667212612286675826222866759262229667602622310000000000066762262233000000000006676526265066764262649667662626510000000000066770262655667342616556677126265600000000000667722627040000000000066773262705667742627066677526270700000000000667762627080000000000066777262709000000000006677926271100000000000))))
 (.node 4 (.node 2 (.node 1 (.leaf 6678026271200000000000667822632130000000000066785263216667842632156678626321766821264218667872632186682126421866788263219668232642206678926322066750262220667902632216675126222166792263223667912632226679326322466828264225667942632256682926422666795263226667962632276680126365166800263650668022636526676726265266803263653668042636546680526365566804263654668062636560000000000066809263705668082637046681026370666811263707668132637100000000000066814264211000000000006681526421200000000000668162642130000000000066818264215668172642146682026421766819264216668222642196682326422066824264221668602652216682526422266862265223668262642236686226522366827264224668282642256683026422766831264228668342642310000000000066835264232000000000006683726465100000000000668382646526687526565366839264653668752656536684026465466876265654668412646556680426365466842264656000000000006684426470366843264702668452647046680826370466846264705668472647066684926470800000000000668502652110000000000066851265212000000000006685226521300000000000668542652156685326521466855265216668902662166685626521766890266216668612652226689626622266863265224668642652256686626522766867265228668702652310000000000066871265232000000000006687226565000000000000668742656526687326565166877265655000000000006687826565600000000000668792657010000000000066881265703668802657026688226570466883265705668852662110000000000066886266212000000000006688726621300000000000)
 (.leaf 6689126621766890266216668922662186685726521866893266219000000000006689426622066932267220669002662266686526522666901266227669022662286690426623000000000000669052662310000000000066906266651000000000006690726665266908266653669102666550000000000066911266656000000000006691226669900000000000669132667000000000000066914266701000000000006691526670266951267703669162667036691726670466919266706000000000006692026700600000000000669212670070000000000066922267210000000000006692326721100000000000669242672120000000000066929267217669282672166693026721866963268219669312672190000000000066933267221669662682226694026722866941267229669422672470000000000066943267652000000000006694426765300000000000669452676540000000000066946267698000000000006694726769900000000000669482677006697826870066949267701669782687006695026770266981268703669532677050000000000066954268006000000000006695526821100000000000669562682120000000000066957268213000000000006695826821400000000000669612682176696026821666962268218669632682196696426822066992269220669652682216696626822266967268223669682682246696926822500000000000669712682276700026922866972268228669732682296697426869600000000000669752686970000000000066976268698670052696986697726869967007269700669792687016698026870266982269210000000000006698326921100000000000669842692120000000000066985269213000000000006698826921666987269215669892692176699026921866994269222669952692236699926922767027270227))
 (.node 1 (.leaf 6700126969400000000000670022696950000000000067003269696670332706976700426969767033270697670062696996703527069967010270210000000000006701127021100000000000670122702120000000000067016270216670152702156701727021767018270218670192702196702027022067021270221670502712216702227022267051271222670252702256702627022667028270228000000000006702927069300000000000670302706940000000000067031270695670572716956703227069667057271695670362707006706227170067037270701000000000006703827070200000000000670392712100000000000067040271211000000000006704227121367041271212670432712146701427021467044271215670142702146704527121667015270215670462712176704727121867053271224670542712256705527169300000000000670562716946708227269467058271696670842726966705927169767085272697670612716996708827270067063271701000000000006706427220900000000000670652722100000000000067066272211000000000006706827221367067272212670692722146709527321467070272215670712722166707327221867100273219670742722196707527222067077272222000000000006707827222367079272224670802724630000000000067081272693000000000006708627269867087272699670892732080000000000067090273209000000000006709127321000000000000670922732110000000000067093273212000000000006709427321367095273214670972732166707127221667105273224671062732256710727343500000000000671082734630000000000067109273695000000000006711027369600000000000671122736980000000000067113273699000000000006711527421267114274211)
 (.leaf 6711627421367117274214671192742166711827421567120274217671212742186712327422000000000000671242742210000000000067125274222671262742236712927422667130274227671312742280000000000067132274695000000000006713327469600000000000671342752090000000000067135275210000000000006713627521100000000000671392752146713827521367140275215000000000006714127521667161276216671422752176714327521867144275219000000000006714527522000000000000671462752216716627622167147275222671482752236715027522567149275224671542762090000000000067155276210000000000006715627621100000000000671602762156717927721467164276219000000000006716527622067185277220671692762246714927522467170276225671492752246717127622600000000000671722762270000000000067173277208000000000006717427720900000000000671752772100000000000067177277212671762772116717827721367179277214671812772166718227721767187277222672082782226718827722367189277224671912772260000000000067192277497000000000006719327749800000000000671942782080000000000067195278209000000000006719627821000000000000671982782126719727821167199278213672222792146720027821467222279214672012782156718027721567202278216672242792166720327821767204278218672112782250000000000067212278497000000000006721327849800000000000672142784990000000000067215278500000000000006721627920800000000000672172792090000000000067218279210000000000006722027921267219279211672212792136724328021367231279223672322792246723327922500000000000)))
 (.node 2 (.node 1 (.leaf 6723427949700000000000672352794980000000000067236279499000000000006723727950000000000000672382797170000000000067239280209000000000006724028021000000000000672422802126724128021167254281209000000000006725528121000000000000672562812110000000000067257281212000000000006725828121367259281214672602812156727428221467261281216672622812176726428121967279282219672652812206726628122167267281691000000000006726828169200000000000672692822090000000000067270282210000000000006727128221100000000000672722822120000000000067273282213672742822146727528221567274282214672762822166727728221767282282238000000000006728328223900000000000672842822400000000000067285282241000000000006728628224200000000000672872822430000000000067288283210000000000006728928321100000000000672902832120000000000067291283213000000000006729328321567292283214673012832380000000000067302283239000000000006730328324000000000000673042832410000000000067305283242000000000006730628324300000000000673072832440000000000067308284209000000000006730928421000000000000673102842110000000000067311284212000000000006731228421300000000000673132842140000000000067314284215672942832166731528421667295283217673162842176733428521767317284218673352852186731828421967319284220673202842210000000000067321284222000000000006732228423800000000000673232842390000000000067324284240000000000006732528424100000000000673262842420000000000067327285210000000000006732828521100000000000)
 (.leaf 6732928521200000000000673302852130000000000067331285214000000000006733228521500000000000673332852160000000000067336285219000000000006733728522000000000000673382852210000000000067339285222000000000006734028522300000000000673412856980000000000067342286211000000000006734328621200000000000673442862130000000000067345286214000000000006734628621500000000000673472862160000000000067348286217000000000006734928621800000000000673502862190000000000067351286220000000000006735228622100000000000673532862226735428622367355286506000000000006735628650700000000000673572872120000000000067358287213000000000006735928721400000000000673602872150000000000067361287216000000000006736228721700000000000673632872180000000000067364287219000000000006736528722000000000000673662872216736728722267370288214000000000006737128821500000000000673722882160000000000067373288217000000000006737428821800000000000673752882190000000000067376288220000000000006737728822167367287222673782882226736828722367379288223673682872236738028822467381288225673822882260000000000067383288284000000000006738428828500000000000673852882860000000000067386288287000000000006738728867700000000000673882886780000000000067389289216000000000006739028921700000000000673912892180000000000067392289219000000000006739328922000000000000673942892210000000000067397289224673962892236739828922567416290225673992892260000000000067400289227674012892286740228922900000000000))
 (.node 1 (.leaf 6740328923000000000000674042892310000000000067405289287000000000006740628928800000000000674072896770000000000067408289678000000000006740929021800000000000674102902190000000000067411290220000000000006741229022100000000000674132902220000000000067414290223000000000006741529022400000000000674172902260000000000067418291223000000000006741929122400000000000674202912250000000000006317040092000000000002863008618628211085187295950884640000000000030768091455000000000003189209445600000000000340431004590000000000035051103458000000000005752619764700000000000665372566550000000000000049013290000500132910009001421500089014214000930142180009201421700096014221000970142220013301428300132014282001360142860013701428700148014298001490142990017501519100000000000001790151950000000000000181015197000000000000018801520400187015203001940152100019301520900197015213001980152140020301521900346016219002070152230009801422300212015228002130152290021501523100216015232002690152880027001528900282015301000000000000028301530200000000000002840153030000000000000285015304000000000000029301531200000000000002940153130000000000000311016184003100161830031401618700313016186003170161900031601618900320016193001780151940032301619600180015196003280162010032701620000331016204003320162050033501620800334016207003390162120034001621300353016226000000000000036501623900000000000003660162400000000000000367016241000000000000037101624500000000000)
 (.leaf 37401624800375016249003790162530000000000000422016296000000000000043201630600000000000004500163240000000000000482017183004810171820049401719500493017194004980171990049901720000506017207005050172060050901721000699018209005100172110051101721200542017243003680162420054901725000548017249005960172970059701729800599017300005980172990061001731100611017312006190173200062001732100665018173006640181720066801817600669018177006790181890067801818800682018192000000000000070601821600707018217007110182210071201822200720018230000000000000072301823300724018234007260182360072701823700778018288005870172880078101829100590017291007830182930059201729300784018294005930172940078501829500594017295007940183040079501830500799018309010170193090080901831900000000000008850191730088401917200888019176008890191770089201918000893019181009090191980090801919700912019201009110192000091501920400694018204009160192050069401820400923019212009240192130094001923200939019231009590192510095801925000995019287007770182870100801930001009019301010140193060101501930701020019312010210193130110802017301107020172011110201760132002117501117020182011180201830112602019101125020190011290201940113002019501137020202011360202010114002020501350021205011430202080114402020901166020242009490192410117102024700954019246011750202510095801925001207020283009910192830121002028600994019286012210202970143402129701222020298014350212980132502118001324021179))))))
 (.node 16 (.node 8 (.node 4 (.node 2 (.node 1 (.leaf 132802118301119020184013290211840154902218301338021193013370211920134102119601131020196013430211980134202119701346021201013470212020135902122200000000000013600212230000000000001361021224000000000000136202122500000000000013650212280000000000001367021230013660212290136902123201156020232013700212330115702023301379021242011650202410138402124701170020246013880212510117402025001419021282012060202820144802131101235020311014490213120123602031201451021314014520213150146802138801254020387014720213920147102139101475021395012630203960147702139700000000000015130215650000000000001514021566000000000000152402215301523022152015270221560152802215701542022176015410221750154702218101548022182015600221940000000000001563022197015620221960156602220001567022201015730222070157402220801584022222000000000000158902222701364021227015960222340137102123401597022235013720212350159802223601373021236015990222370137402123701602022240013770212400160402224201378021241016090222470138302124601613022251013870212500167002230801445021308016710223090167202231001677022315016780223160169302238801694022389016950223900000000000001698022393019100233920170102239601915023397017200225610000000000001728022569000000000000174802316000000000000017620231790000000000001763023180000000000000177402319201773023191017790231970177802319601782023200017830232010178602320401787023205017960232180158002221801816023238016000222380181902324101603022241)
 (.leaf 182202324401606022244018240232460160802224601825023247016080222460182702324901611022249018280232500161202225001829023251016120222500183102325301615022253018320232540161602225401833023255016170222550183402325601618022256018350232570161902225701836023258016200222580183702325901621022259018610232830164502228301865023287016490222870186702328901651022289018710232930187202329401912023394019110233930192402355900000000000019280235630000000000001944024134000000000000194702413701948024138019770241880000000000001983024194000000000000198902420001990024201019980242160000000000001999024217000000000000200202422000000000000020050242230000000000002006024224000000000000200802422600000000000020190242370201802423602042024260018380232600204302426101839023261020440242620184002326202064024282018590232810206802428601863023285020940243120209502431302112024393021110243920212902456700000000000021610251830000000000002162025184000000000000216402518602163025185021700251920216902519102173025195021740251960217502519700000000000021760251980000000000002195025228021940252270219702523002012024230022070252400241002624002209025242024120262420221002524302413026243022300252630204502426302231025264020450242630223202526502047024265022330252660204802426602249025282020630242810225902529202074024292022720253050208702430502273025306022740253070228302531602284025317023150255650231402556402318025568000000000000231902556900000000000))
 (.node 1 (.leaf 232102557100000000000023250261200232402611902371026189025980271900237302619102599027191023750261930260102719302382026200023830262010239502622502394026224024020262320262302723202406026236024070262370240802623802629027238024090262390263002723902411026241026320272410241402624402635027244024160262460263702724602417026247026380272470241902624902418026248024210262510242002625002423026253026440272530242402625402644027253024250262550264502725402426026256026460272550242702625702647027256024280262580264802725702429026259026490272580243702626702234025267024380262680223502526802440026270022370252700245202628202248025281024580262880225502528802461026291022570252900247202630202269025302024780263080247902630902515026565025140265640252202657202523026573025260265760000000000002540027118000000000000255702714000000000000025600271430000000000002570027160025690271590257302716300000000000025820271740000000000002585027177025860271780259002718200000000000025950271870000000000002603027195000000000000260502719700000000000026180272270000000000002619027228000000000000262502723400000000000026260272350000000000002643027252028640282520265302726202652027261026540272630287402826202662027271024410262710267302728202451026281026790272880245702628702682027291024600262900269602730502697027306027160274810000000000002759027572027580275710276202757502524026574027650275780252902657902767027580025310265810277002758300000000000)
 (.leaf 277202758500000000000027750276360000000000002795028130027940281290279802813302799028134028040281420280302814102810028148000000000000282002816102819028160028230281640000000000002829028177028280281760283202818000000000000028380281900000000000002843028195000000000000284502819700000000000028770282650310802926402878028266031100292660289402828202672027281029000282880267802728702903028291026810272900290802829602687027296029100282980268902729802911028299026900272990291202830002691027300029140283020269402730302919028307026990273080292002830802921028309029220283100270102731002924028312029250283130292702831502707027316029290283170316102931702931028319029320283200293302847600000000000029500285400000000000002956028546000000000000295702854700000000000029600285500296102855102966028556029670285570297702856702976028566029800285700297902856902983028573032230295720298702857702986028576029900285800299102858103001028635000000000000300702864100000000000030100286440000000000003032029137000000000000304202914700000000000030560291680305502916703059029171030600291720306102917500000000000030640291780306302917703067029181028340281820306802918202834028182030710291850307202918603075029189030740291880308502919900000000000030880292440000000000003094029250033260302490310102925703333030256031120292680311102926703114029270028820282700311602927202884028272031170292730288502827303118029274028860282740313202928802899028287)))
 (.node 2 (.node 1 (.leaf 313502929102902028290031580293140315902931503173029475000000000000317902948100000000000031810294830000000000003188029537000000000000319402954302953028543031990295480320002954903213029562032120295610321602956503215029564032280295770322702957603233029582034680305830323502958403236029585032420296350324102963403245029638032460296390327203013300000000000032750301360000000000003279030140000000000000328003014100000000000032810301430000000000003283030145000000000000331303019300000000000033140301940000000000003316030196000000000000333403025703540031256033420302650354903126503347030270033460302690336503028803131029287033680302910313402929003373030296031390292950337403029703141029297033760302990358403130003381030304035870313030338803031103595031311033900303130359703131303393030316000000000000340403047303403030472034070304760361603147703409030478000000000000341103048000000000000034200305350000000000003428030543034270305420343103054603432030547034410305560344203055703460030575036660315750346303057803464030579034650305800346603058103474030638000000000000347703064100000000000034780306420000000000003479030643000000000000349903111700000000000035040311220000000000003541031257037580322560355803127403557031273035590312750335203027503560031276033530302760357203128803364030287035750312910336703029003585031301038030323010358603130203805032303035890313050359003130603593031309035920313080361003147100000000000)
 (.leaf 361303147403830032475036150314760000000000003629031538036280315370363303154203855032543036370315460363603154503640031549036390315480364303155203644031553036550315640344803056303660031569036590315680366403157303663031572036840321130368303211203690032119036910321200369603212503697032126037190321710371803217003721032173037200321720373003218500000000000037370321940000000000003745032202000000000000374603220300000000000037730322710377203227003779032277035610312770378003227803562031278037810322790356303127903782032280035640312800378303228103565031281037840322820356603128203786032284035680312840378703228503568031284037880322860356903128503789032287035700312860379003228803571031287037920322900357403129003795032293035770312930379603229403578031294038000322980405003329903814032312000000000000381603231403817032315038250324700382403246903829032474038300324750383903252700000000000038480325360384703253503851032539041090335390385303254103854032542038610325490386003254803870032558038690325570387303256103653031562038930325820000000000003909032609000000000000391003261000000000000039270331170392603311603931033121039300331200393403312400000000000039360331260000000000003937033127000000000000393803312800000000000039390331290000000000003945033146000000000000395403316003953033159039620331690396103316803969033176039700331770397303318303972033182039770331870000000000003982033192039810331910398703319700000000000))
 (.node 1 (.leaf 398903319900000000000039950332050000000000004000033249000000000000400203325104285034251040040332530428703425304021033270040200332690404703329604048033297040550333040380603230404073033469040720334680407603347204077033473040920335220409103352104095033525038360325240409903352904383034530041150335450411603354604128033558041270335570413103356103874032562041330335630441503456204136033566038780325660414103357100000000000041500335800389003257904164033594041650335950417703361200000000000041790336140000000000004180033615000000000000419703411404196034113041990341160392603311604202034119039290331190421503413200000000000042210341380000000000004226034144000000000000423003414800000000000042370341590000000000004240034162039570331630424303416500000000000042480341710424903417204250034173000000000000425503418100000000000042580341840425903418504262034189042610341880426503419204264034191042680341950426903419604273034200000000000000428003420700000000000043090342750430803427404311034277045970352760432503429104612035291043270342930461403529304332034298040500332990433403430004335034301043370343030433803430404353034467043520344660435603447004357034471043640345030000000000004375034522043740345210437803452504379034526043910345380439003453704394034541043950345420439703454404398034545044000345470439903454604405034552046970355520440803455504409034556044200345670442103456804433034580044340345810443703458404438034585)
 (.leaf 444903459604448034595044690346160447003461704472034641000000000000448903511604488035115044920351190000000000004496035123000000000000451003513700000000000045130351400422203413904518035145045170351440452203514900000000000045260351590000000000004533035166000000000000453503516900000000000045380351720000000000004543035184045420351830454603518700000000000045500351920454903519104553035195045540351960455703519900000000000045600352020000000000004563035205045620352040457603525504575035254045850352640489303626304587035266048960362660458803526704896036266045900352690489903626904591035270049000362700460003527904908036278046010352800490903627904602035281049100362800460303528204911036281046040352830491203628204606035285049150362850460803528704609035288046100352890492003629004615035294046160352950462703530604628035307046400354660463903546504644035470046450354710464703549804646035497046490355000436203450104653035504046540355050466703552200000000000046700355250466903552404681035536046800355350468303553804684035539046880355430439603454304689035544043960345430469203554704693035548046980355530469703555204703035558047020355570470603556104707035562047090355640471003556504717035572047180355730472003557504429034576047220355770443003457704731035586047320355870473503559004734035589047400355950473903559404746035601047450356000475403560904463034610047560356110446303461004770035644047710356450479303611404792036113))))
 (.node 4 (.node 2 (.node 1 (.leaf 480203612400000000000048040361260449803512504808036130048070361290481103613304507035134048160361380481503613704819036141045150351420482403614604823036145048280361500000000000004831036161048300361600483303616300000000000048450361820484403618104850036187000000000000485703619404856036193048610361980455603519804867036204045610352030487003620704871036208048870362570521303725704891036261048900362600489203626205218037262048950362650522103726504898036268052240372680490203627205228037272049030362730522803727204906036276052310372750490703627705232037276049140362840523903728304940036310052660373100494303631304944036314049500364650527803746404954036469049550364700495903649804958036497049620365010496303650204971036510000000000000497703651704976036516049800365200466503552004982036522000000000000498903652904990036530049910365310532603753205018036558050190365590502703656705026036566050290365690471403556905044036584050430365830504703658705048036588050560365960474203559705072036612050730366130507503661505074036614050770366170000000000005091036642050900366410509403664505095036646051010366520000000000005104036655051050366560510803665900000000000051410371360549603813505145037140055020381410514703714204821036143051510371460515003714505153037148051540371490516203716905161037168051640371710516503717205172037185051710371840518203719505181037194051930372060519203720505196037209048730362100521403725805213037257)
 (.leaf 522303726705587038267052270372710559103827105240037284056040382840524603729004921036291052480372920524903729305251037295052520372960525503729905256037300052590373030526003730405263037307052640373080526803731205267037311052710373150000000000005280037466000000000000528203746805281037467052850374710528603747205290037496052890374950529203749804958036497052950375010529603750205300037506000000000000530303750905304037510053140375200568803851905318037524000000000000532203752805321037527053240375300569903853005328037534053290375350535603756205357037563053640375700536303756905368037574053670375730536903757505370037576053780375840537703758305383037589053820375880539103759705058036598053930375990539403760005404037610050700366100540703761305408037614054120376180541303761905418037627000000000000542103763005420037629054250376340000000000005426037635000000000000543303764205432037641054440376530544503765405451037660054520376610547503804800000000000054800380530000000000005499038138054980381370550503814405504038143055100381490551103815005514038153000000000000552003816805519038167055250381730552603817405536038189055370381900553803819105948039191055410381940554203819505550038203059590392020555403820705553038206055580382110555703821005561038214055620382150558303826305994039262055900382700600203927005621038301056220383020562603830600000000000056340383150000000000005668038498056670384970567103850105672038502))
 (.node 1 (.leaf 567503850500000000000056790385100530503751105684038515053100375160570403853505705038536057100385410571103854205712038543057130385440571603854705717038548057280385590572703855805746038577057450385760574903858005374037580057520385830575303858405758038589057570385880576403859505763038594057670385980576803859905775038606057740386050577803860905779038610057840386150578303861405787038618057880386190579003862100000000000057930386240579203862305810038641058090386400584003867100000000000058470386780000000000005862039044054720380450586403904605472038045058730390550587403905605903039133000000000000590903913905908039138059120391420636004014305915039145063620401450591603914606362040145059200391500592103915105929039167000000000000593303917105934039172059420391850000000000005943039186000000000000594403918700000000000059470391900639304019005957039200059580392010596903921205970039213059720392150597303921605976039219059770392200599803926606445040266060010392690644804026906017039285064640402850601903928706466040287060200392880646704028806029039297060300392980603703930500000000000060450393130000000000006059039408000000000000606403941300000000000060830394990608203949806086039502060870395030609103950800000000000061000395170610103951806107039524061080395250611103952806110039527061160395330611503953206137039554057240385550613903955605724038555061480395650614903956606159039576061580395750616203957906163039580)
 (.leaf 616603958306167039584061730395900617203958906178039595061790395960618503960206647040601061990396160619803961506201039618057880386190620403962105791038622062100396270579603862706224039641062250396420623903965606238039655062420396590582903866006244039661058310386620624603966306247039664062490396660583503866606256039673058420386730625803967505845038676062750400420586003904206281040048062820400490628504005206284040051062990400660629804006506303040070000000000000630404007100000000000063060400730588803907306307040074063080400750632904010406328040103063410401180000000000006347040130063460401290635204013505905039135063570401400635804014106367040150063680401510637804016500000000000063850401720638604017306409040206000000000000641304021006412040209064190402160597403921706421040218064220402190643104025200000000000064340402550000000000006444040265069480412650644704026806951041268064610402820646004028106468040289069720412890646904029006974041291064700402910697404129106472040293069760412930647404029506977041294064760402970698104129806482040303060360393040648704030806488040309065050404030000000000006512040410060610394100651904041706520040418065240404220000000000006525040423000000000000652604042400000000000065370404850000000000006542040495000000000000654604049906545040498065490405020608703950306551040504065520405050655304050700000000000065560405100609403951106562040516065630405170656504051906101039518)))
 (.node 2 (.node 1 (.leaf 656704052106568040522065830405370709504153606587040541065860405400659004054406591040545066000405540659904055306603040557066040405580660704056106608040562066090405630660804056206613040567061500395670661704057106616040570066200405740661904057306637040591066360405900663804059207151041592066510406050665204060606662040616066610406150666604062006667040621066740406280667504062906677040631066760406300668004063406216039633066870406410720004164106691040645062280396450669304064706694040648067040406580670304065706709040663067100406640671804067206719040673067290406830000000000006731040685000000000000674404070100000000000067600410340626704003406762041036067630410370676404103806765041039067660410400627204003906769041043062770400440677104104506772041046067840410580678304105706786041060062930400600678704106106295040062067940410680679304106706802041076063090400760682204110006821041099068310411090000000000006837041115068360411140684304112100000000000068440411220000000000006845041123000000000000685504113506854041134068570411370685804113806863041143068640411440687004115006869041149068830411630000000000006894041175068930411740690204119006901041189069050411930690604119406922041214069210412130692504121707455042217069280412200692904122106947041264069460412630696804128507495042286069780412950697704129406983041300069820412990700504140006502040400070080414030650404040207011041406070120414070701404140907015041410)
 (.leaf 701804141307019041414070300414250652804042607034041429000000000000704604148307045041482070500414870705104148807059041499070580414980706204150207063041503070700415110000000000007071041512000000000000707204151300000000000070750415160707404151507079041520070780415190708404152507085041526070930415340709204153307102041543071010415420710504154607106041547071100415510659704055107117041558071180415590712404156507125041566071300415710712904157007133041574071340415750714104158207142041583071450415860714604158707148041589071470415880715804159906645040599071600416010716104160207170041611071690416100717304161407172041613071780416190717904162007182041623066700406240718504162607186041627071900416310718904163007194041635077430426360719704163807198041639072020416430720104164207206041647072050416460721004165107758042651072150416560721404165507218041659072190416600723404167507235041676072390416800672604068007246041687077930426860724904169006736040690072510416920725204169307255041696000000000000726104170407260041703072640417070674904070607272041715072730417160727504171800000000000072770420010000000000007283042031000000000000729204204007293042041073010420490677604105007305042053073040420520730704205507308042056073150420630731404206207317042065067910410650732204207007875043069073260420740788104307507329042077073300420780733304208107334042082073360420840733704208507339042087000000000000734504209307346042094))
 (.node 1 (.leaf 734804209606819041097073520421000790604310007359042107068290411070737004211807923043117073720421200684204112007378042126000000000000737904212700000000000074240421750742304217407427042178000000000000742904218107428042180074340421900000000000007437042193074380421940745104221307450042212074560422180745504221707459042221000000000000746004222200000000000074610422230000000000007490042281080380432810749704228807498042289075050422960805304329607511042302080590433020751204230300000000000075250423950000000000007529042399070030413980753304240307534042404075400424100754104241107547042417075480424180756304243300000000000075920424830759104248207594042485081480434840759704248807052041489076050424970000000000007613042505000000000000762204251500000000000076310425240763004252307633042526070850415260763604252907088041529076420425350764104253407652042545076510425440765504254808212043548076580425510765904255207663042556082190435550766604255907667042560076690425620712204156307680042573082380435740768204257507683042576076860425790768704258007693042586076940425870769804259107699042592077060425990770704260007722042615077210426140772504261807726042619077410426340774004263307747042640077480426410776304265607214041655077660426590776704266007770042663072220416630777904267207778042671077900426830724104168207798042691077970426900782204271507821042714078290430020783004300307835043029078340430280785004304408408044044)
 (.leaf 785304304707299042047078570430510730404205207863043057073090420570786604306007311042059078780430720787904307307884043078078850430790788804308207887043081079000430940734604209407903043097073500420980790504309907906043100079240431180792304311707928043122079290431230793504312900000000000079620431700000000000007963043171000000000000797504318300000000000079780431880000000000007998043215079970432140800704322400000000000080140432570000000000008021043264080200432630803104327408030043273080360432790861204427908039043282086150442820804104328408617044284080460432890804704329008050043293080510432940805704330000000000000080580433010000000000008069043392000000000000807104339408070043393080740433970807504339808079043402080800434030808504340808086043409080880434110808904341208091043414080900434130809504341808096043419081020434250866804442608103043426075560424260810604342908107043430081110434340756504243508113043436000000000000811804344800000000000081280434640000000000008134043470081330434690813604347208137043473081420434780000000000008146043482081470434830814904348508148043484081520434880815304348908154043490076000424910815804349408159043495081630434990816204349808166043502081670435030817004350600000000000081730435090000000000008176043512081770435130817904351500000000000081860435220762804252108193043529081920435280820704354308206043542082140435500878604455108224043560082250435610822804356408229043565)))))
 (.node 8 (.node 4 (.node 2 (.node 1 (.leaf 823704357308238043574082620435980826304359908274043610082730436090827904361508278043614082820436180885404461908284043620082850436210829204362808864044629083000436360829904363508305043641088770446420830804364408309043645083180436540831704365308321043657083220436580833304366908332043668083350436710777804267108354043690083530436890835704369308927044692083600436960780304269608363043699083640437000836904370508368043704083770437130837604371208378043714078200427130838104371708382043718083850440010838604400208394044030000000000000839604403208395044031084120440480841104404708418044054084190440550842404406008995045059084270440630899804506208428044064089990450630843004406608431044067084500440860902204508608452044088084530440890845704409308456044092084600440960903204509608462044098084630440990846804410408467044103084810441170848004411608486044122079290431230849404413000000000000084960441320000000000008497044133000000000000850804414400000000000085100441460794604314608512044148079480431480851304414907949043149085140441500851504415108518044154000000000000852504416100000000000085260441620000000000008537044173079660431740853904417508540044176085450441810854404418008547044183000000000000854904418700000000000085520441900798104319108557044195085580441960855904420500000000000085630442090000000000008572044219091430452180857604422308575044222085790442260000000000008580044227000000000000858204422900000000000)
 (.leaf 860704427408606044273086110442780918604527808618044285086170442840862104428808622044289086320443900000000000008635044393086360443940864004439808641044399086540444120922904541308659044417092320454160866404442208665044423086700444280924404542808672044430081070434300867604443408677044435086820444400000000000008688044450000000000000869704446008124043460087040444670813104346708707044470092780454690871104447408712044475087140444770928504547608719044482087180444810872504448809296045487087270444900872604448908730044493087310444940873604449909307045498087420445050000000000008744044509000000000000874804451308749044514087560445210818504352108759044524093310455240876404452908763044528087760445410877504454008780044545087790445440878704455208788044553087910445560879204455708797044562087980445630880604457108807044572088250445900882604459108850044615088490446140885304461808854044619088590446240828904362508873044638088740446390888504465008315043651088890446540831704365308893044658088940446590889604466108326043662088990446640832804366408902044667089030446680891704468208346043682089200446850891904468408934044699083640437000893704470208936044701089410447060951404570708946044711089450447100895104471608952044717089560450010895704500208959045004089600450050896104500608962045007089670450120000000000008973045037089740450380898804505208989045053089960450600957204605909005045069095810460680901904508309597046084))
 (.node 1 (.leaf 902504508909026045090090430451070904404510809049045113090480451120905404511809631046118090550451190963204611909057045121096330461200905904512309635046122090620451260906304512709065045129090640451280907404513809075045139090890451530851704415309092045156085200441560909304515708521044157090940451580852204415809099045163085270441630910204516608531044167091130451770911204517609115045179085430441790911904518309120045184091220451860000000000009125045189097030461900912804519209127045191091310451950913204519609136045207000000000000914004521500000000000091470452220971804622109150045225097220462250915504523000000000000091810452730918004527209200045292000000000000921004539409211045395092170454010979304640209234045418092330454170923904542309240045424092410454250000000000009246045430092470454310924904543309250045434092630454510000000000009265045456092640454550926804545908695044458092720454630927304546409280045471098580464710928604547709285045476092890454800986604647909293045484092920454830930304549409304045495093080454990988504649809311045502093120455030931304550400000000000093170455100931804551109332045525093310455240933504552808762044527093370455300991504652909342045535093410455340935304554609352045545093560455490993504654909363045556099420465560936504555809945046559093720455650937104556409377045570093760455690937904557209380045573093910455840939204558509395045588093960455890940404559709405045598)
 (.leaf 941004560309411045604094220456150942104561409425045618094260456190943004562309431045624094440456370944304563609448045641088760446410945704565008886044651094580456510888604465109459045652088870446520946104565408888044653094640456570946504565809481045674094800456730948704568009486045679094900456830949104568409492045685094910456840949504568810074046688094960456891007404668809501045694095020456950950704570009506045699095110457040951204570509516045709095150457080951904571209518045711095250457181010404671809528046001095290460020953504600808964045009095370460100000000000009555046042101420470410956304605009562046049095740460610957504606209591046078095900460770960204608909603046090096110460980961204609909618046105096170461040962304611009046045110096300461171021904711809637046124102240471230964604613309070045134096490461360965004613709657046144000000000000965804614500000000000096600461470908204514609665046152090880451520967404616109096045160096850461720968604617309690046177096890461760969504618209696046183096990461861028804718709706046193097070461940972404622710310047227097290462320000000000009740046257000000000000975204626909176045268097530462700917704526909754046271091780452700975704627410343047275097580462750975904627609768046285103530472850977004628710355047287097710462881035604728809772046289103570472890977804638700000000000097810463900920604539009785046394097860463950979904640809798046407)))
 (.node 2 (.node 1 (.leaf 980304641209802046411098060464151040704741409811046420098120464210982004642900000000000098240464330982304643209827046436104300474370983004643909256045440098320464410000000000009836046449000000000000983804645100000000000098450464580984604645909848046461098490464620985704647009858046471098740464870929504548609877046490098780464910988804650100000000000098930465070000000000009897046511098980465120990204651609901046515099060465200932804552109908046522099090465230991304652709914046528099290465430992804654209931046545105370475440993304654709934046548099410465550994204655609948046562105560475630995204656609953046567099590465730938004557309961046575093820455750996704658109966046580099700465840997104658509973046587099740465880997604659009977046591099830465970998404659809986046600105940476010998804660210594047601099980466120999704661110001046615100000466141001304662710014046628100250466391002404663810027046641100280466421003304664710032046646100380466521003904665310047046661100480466621005304666710052046666100570466711005604667010062046676100610466751007004668410071046685100820466961008104669510085046699106920476991008804670210087046701100910467051009204670610100046714100990467131010204671610103046717101100470041010904700310113047007107190480071011704701100000000000101220470160954404601710124047018000000000001012804702600000000000101310470290000000000010133047031000000000001013404703200000000000)
 (.leaf 1013504703300000000000101360470340000000000010137047036000000000001014404704310143047042101470470461075504804610150047049107580480491015804705710157047056101600470591076904806010178047077101770470761018104708009594046081101850470841018404708310187047086095990460861019104709010192047091101980470971019904709810209047108102080471071022804712709639046126102350471341023404713310238047137102390471381024904714810250047149102550471541025604715510260047159108680481591026504716410264047163102700471690968104616810277047176108860481771028004717910889048180102820471811089004818110297047214102960472131030004721710301047218103040472211030304722010306047223000000000001030704722400000000000103120472290000000000010314047231103130472301031704723400000000000103220472540000000000010336047268097500462671033704726909751046268103420472741034304727510354047286000000000001035804729000000000000103610473140000000000010372047328000000000001038204738910381047388103850473921099504839310386047393103870473941041104741810412047419104180474251041904742610435047442000000000001043604744300000000000104380474450000000000010447047454104460474531044904745609842046455104510474581105204845910454047461110550484621045704746409851046464104600474671045904746610462047469104630474701047804748510477047484104830474901048404749110493047500000000000001050204750910501047508105060475131050704751410510047517105090475161051304752010514047521))
 (.node 1 (.leaf 1051804752510517047524105350475421113404854110538047545111380485451054504755211145048552105460475531054704755410550047557111510485581055804756510559047566105630475701116304857010565047572111650485721056804757511168048575105700475771057104757810574047581099660465801057704758410578047585105840475911058504759210587047594105880475951059704760409990046604105990476061060004760710607047614106060476131061004761710611047618106140476211000704662110621047628100140466281063104763810630047637106340476411063504764210638047645100310466451064804765510649047656106590476661065804766510660047667100520466661066304767010056046670106660476731066704767410668047675106670476741067504768210674047681106800476871067904768610683047690106840476911068904769611290048697106910476981069204769910694047701106930477001069804770510699047706107010477081070004770710707047714107080477151071104771811310048717107140480020000000000010720048008113170490071072504801310726048014107480480391074704803810753048044107540480451076204805310761048052107640480551135704905510771048062107700480611077804806910170047069107820480731017404707310786048077113780490761078904808010790048081108040480951019604709510808048099102000470991080904810010202047101108140481051020604710510821048112108200481111083404812510833048124108370481281083604812710839048130108400481311084204813311435049133108460481371084704813810851048142102430471421085504814610246047145)
 (.leaf 1085804814910250047149108610481521086204815310878048169102690471681088004817111474049172108830481741088204817310894048185114870491851090304821100000000000109060482141090504821310910048218103010472181091204822010303047220109150482230000000000010920048230000000000001092304823300000000000109290482560000000000010933048260109320482591093604826310935048262109410482681033504726710951048278109520482791096204831200000000000109670483170000000000010968048318000000000001096904831900000000000109730483230000000000010979048329109800483301098904838710988048386109920483901099304839111000048398115850493991100604840400000000000110070484050000000000011009048407000000000001101204841000000000000110140484121159204941111018048416110170484151102204842011023048421110280484261102904842711033048440000000000001104904845611048048455110510484581105204845911079048486116630494871108004848711081048488110850484921108404849111087048494104860474931109304850011094048501110990485061049804750511102048509111010485081110504851211106048513111110485181111004851711114048521111150485221111904852611118048525111220485291112304853011136048543111350485421115804856511157048564111610485681116204856911169048576117520495761117604858311177048584111790485861118004858711188048595111890485961119904860611200048607112050486121120404861111210048617112090486161121304862011214048621112300486371122904863611234048641112350486421124604865311245048652))))
 (.node 4 (.node 2 (.node 1 (.leaf 1124904865611250048657112620486691184604967011265048672118470496711126804867511269048676112860486931128704869411295048702112960487031130004870711299048706113120487190000000000011315049004000000000001131904900911318049008113220490121072404801211325049015000000000001133304903111332049030113370490351133804903611341049039119150500381134404904211345049043113500490481134904904711361049059119360500591136404906211363049061113670490651077304806411371049069113720490701138004907811379049077113830490811138404908211390049088107980480891139804909611399049097114090491071141004910811418049116114170491151142204912010828048119114300491281200405012711446049144114470491451145504915310862048153114580491561086504815611467049165120420501651147004916810877048168114770491751205105017411480049178114810491791148804918700000000000114910491900000000000011500049210000000000001150404921411503049213115080492181208605021711515049225000000000001152604926012103050259115320492661093804826511533049267109390482661153404926810940048267115370492711094404827111550049314000000000001155104931500000000000115570493211097004832011560049324115610493251156504932911566049330115700493840000000000011575049389115760493901157804939212156050393115980494171159704941611599049418121750504171160204942111603049422116190494431162004944411622049446116230494471162404944811623049447116250494491104204844911629049453110450484521163104945512211050455)
 (.leaf 1164704947111648049472116540494781165304947711657049481110730484801166004948412239050483116710494951167004949411673049497116740494981167804950211679049503116860495101226605051011688049512116890495131169404951811110048517117010495251170004952411705049529117040495281171804954212297050541117210495451230105054511726049550117270495511173004955412311050555117410495651232005056411744049568117450495691174604957012325050569117500495741175104957511759049583123390505831176204958611763049587117660495901176704959111776049600123550505991179004961412369050613117930496171179204961611796049620117970496211180004962411799049623118010496251121804862511805049629118060496301180904963311225048632118130496371122904863611815049639123950506391181904964311820049644118250496491124204864911828049652118290496531183004965411829049653118410496651184004966411844049668124240506681185104967511850049674118650496891186404968811868049692124490506931187704970111878049702118880497121188904971311891049715124710507151189404971811895049719118990500110000000000011910050033000000000001191605003912485051038119190500421134504904311933050056119340500571194705007011946050069119500500731137604907411952050075125230510761195605007911955050078119600500831138604908411965050088119640500871196705009011391049089119710500941139504909311976050099119770501001197905010211404049102119820501051140604910411988050111114120491101199205011511993050116))
 (.node 1 (.leaf 1199605011911995050118120060501291200505012812010050133125800511331201505013812014050137120230501461144904914712031050154120320501551204605016912047050170120520501751205105017412057050180126280511811206305018700000000000120680501921263705119212072050203000000000001207505020612076050207120850502161208605021712090050221126580512201209505022600000000000121050502611210405026012107050263121060502621211705027312118050274121290503181212805031712131050320126980513191213305032212700051321121370503261156304932712141050330115670493311214905038612148050385121530503901272105139112176050418121750504171218905043300000000000121920504360000000000012195050439000000000001219705044112196050440122010504451220205044612214050458122130504571221705046112218050462122260504701222705047112233050477128020514761223605048012807051481122480504921224705049112257050501122580505021227405051812275050519122890505331170904953312294050538122930505371230505054912876051550123070505511230805055212328050572123290505731233605058012905051579123480505921234905059312350050594123490505931235305059712923051597123560506001292605160012359050603123580506021236205060612933051607123710506151237005061412378050622123770506211238305062711803049627123910506351239005063412393050637123940506381240105064512402050646124060506501240505064912412050656118330496571241405065812415050659124330506771243405067812440050684118590496831244305068712444050688)
 (.leaf 1244805069212449050693124520506961245305069712480051029000000000001248105103000000000000124900510431248905104212493051046119240500471249605104912497051050125000510531249905105212502051055130630520541251105106412510051063125180510711251705107012521051074125220510751253105108412530051083125340510871309605208712537051090125380510911254105109411970050093125430510961310405209512546051099125470511001254805110112549051102125600511131312205211312562051115125630511161256605111912565051118125680511211313105212212569051122131310521221257205112512002050125125830511361258405113712593051146125940511471259605114912025050148126040511571203405015712612051165126130511661262505117812626051179126290511820000000000012630051183000000000001263105118400000000000126320511870000000000012634051189131940521881263905119413199052193126500512120000000000012651051213000000000001265705121912088050219126630512251266205122412666051228126670512291268305127012682051269126860512731268705127412714051384127130513831271805138813275052389127190513891272005139012725051395127260513961273105140100000000000127340514070000000000012737051410127360514091273805141112168050410127460514191274505141812749051422127500514231275405142712755051428127590514320000000000012764051438121940504381277505144912774051448127820514561278305145712786051460127850514591279105146512792051466127940514681222305046712797051471127980514721281105148512810051484)))
 (.node 2 (.node 1 (.leaf 1281805149212817051491128210514951225105049512824051498128230514971282805150212829051503128330515071226305050712836051510122670505111284305151700000000000128510515251285005152412856051530128550515291285905153312860051534128630515371286205153612865051539134230525391286705154113425052541128770515511287605155012896051570134550525711290005157412899051573129030515771233405057812906051580129050515791290905158313467052583129110515851346905258512913051587129140515881291705159112918051592129220515961348005259612932051606129330516071294405161812943051617129500516241294905162312954051628135110526271295605163013515052631129630516371296205163612967051641129680516421297705165112976051650129790516531353605265212993051667129940516681300105167513000051674130030516771243405067813011051685130100516841302105169513579052695130260517001245705070113030051704130290517031303305170713034051708130370517111303805171213041051715000000000001304805203913047052038130590520501249805105113064052055130650520561307705206812515051068130830520741308405207513088052079130890520801309005208113089052080131050520961310405209513115052106131160521071311905211012558051111131240521151312305211413125052116125630511161313505212613704053126131390521301370805313013143052134131420521331314605213713147052138131500521411258905114213163052154126010511541319705219100000000000132100522150000000000013211052216000000000001321205221700000000000)
 (.leaf 1321605222113217052222132200522251321905222413224052229000000000001322805225800000000000132360522661267805126513237052267126800512671323905226912681051268132440522741379705327413246052276000000000001325205231700000000000132550523200000000000013258052323000000000001325905232400000000000132600523250000000000013261052326000000000001326905238313268052382132720523861381705338613274052388138200533891329305240912735051408132970524131329805241413306052422138510534221330805242412751051424133100524261331105242713315052431133140524301332205243813321052437133250524411332605244213329052445133280524441333105244712774051448133430524591334205245813345052461138900534611334705246313891053462133550524711390005347113362052478128040514781336505248112807051481133710524871337205248813385052501133840525001338705250313388052504133920525081339305250913396052512133970525131340305251900000000000134170525331341805253413419052535134180525341342105253712862051536134300525461287205154613433052549128750515491344105255712884051558134580525741345705257313461052577140070535781346605258213467052583135030526191404705361813509052625135080526241352105263713520052636135240526401352505264113530052646129710516451353105264712972051646135340526501353505265113540052656129830516571354505266112988051662135480526641299005166413559052675135580526741356805268413010051684135710526871357205268813581052697135800526961358305269913584052700))
 (.node 1 (.leaf 1358605270213028051702135910527071359205270813597052713135980527141360105271700000000000136110530330000000000013616053038141560540381362305304513054052045136240530461305605204713627053049136260530481363305305513632053054136350530571306605205713638053060141770540591364005306213071052062136420530641418305406513655053077136560530781366705308914206054088136760530981367505309713679053101136800531021368205310413113052104136840531061368505310713689053111131200521111369205311413691053113136960531181312705211813699053121142380541201371005313213709053131137130531351425305413513720053142142590541411372405314613155052146137260531481372705314913730053152131600521511373305315513164052155137410531631428105416313746053168142860541681374905317114290054172137520531741429305417513753053175131840521751375605317800000000000137730532240000000000013776053227000000000001377905323000000000000137840532611378305326013788053265137870532641379405327113795053272137960532731433305427313804053323000000000001381305338213812053381138160533851381705338613827053396000000000001382805339700000000000138300533990000000000013837053408138360534071384005341114373054412138450534161437605441513847053418138480534191385305342414385054424138550534261385605342713865053436133210524371386905344013870053441138770534481333305244913893053464144240544631389405346513895053466138980534691389705346813909053480139100534811391305348413914053485)
 (.leaf 1392205349313921053492139240534951337805249413927053498133810524971394405351513399052515139460535171394505351613949053520134040525201395205352313953053524139540535251340905252513955053526134100525261395705352813411052527139590535301396005353113962053533139630535341397005354113969053540139740535451397305354413977053548139780535491398405355513439052555139890535601344405256013994053565139930535641403305360414032053603140350536061349105260714037053608134920526081404105361214042053613140580536291405705362814065053636140640536351406905364014070053641140780536491407705364814083053654140840536551408805365914089053660140920536631409305366414096053667140970536681410005367113555052671141020536731355605267214105053676141060536771411105368214643054682141160536871464705468614118053689141190536901412505369614124053695141280536991358405270014131053702135850527011413805370913593052709141460537170000000000014161054043136210530431416905405114168054050141840540661418305406514186054068147220550691418705406914722055069141900540721418905407114213054095142120540941421605409814215054097142190541011422005410214224054106136850531071422605410814227054109142400541221424105412314244054126142450541271425105413314250054132142540541361478905513614262054144147960551431426405414614799055146142690541511372805315014279054161137390531611428505416714286054168142890541711429005417214292054174142930541751430605421800000000000))))))))))
 (.node 256 (.node 128 (.node 64 (.node 32 (.node 16 (.node 8 (.node 4 (.node 2 (.node 1 (.leaf 1430805422000000000000143090542210000000000014317054229000000000001432305426314861055263143280542681486605526814343054378143420543771434405437913810053379143460543811381105338014351054386143520543871436305440200000000000143660544051436505440414367054406138340534051437105441014372054411143740544131437305441214377054416143760544151438305442214382054421143910544301493505543114393054432138600534311439505443414937055433143970544361494005543614404054443144030544421441005444914952055448144130544521441405445314416054455138840534551441905445814961055457144320544711443305447214438054477144370544761444105448014442054481144450544841444405448314448054487144490544881445705449614999055495144660545051501005550614467054506150100555061447905451814478054517144840545231448305452214501054540145000545391450505454415047055543145090545481451005454914517054556145180545571452405456315067055563145290545681399705356814540054579140080535791454205458114543054582145590545981455805459714562054601145610546001456405460314032053603145700546091403805360914575054614145760546151457805461714046053617145820546211458105462014597054636145960546351459905463815141055637146080546471407705364814609054648140770536481461005464914077053648146190546581516305565914620054659146210546601463005466914097053668146340546731410105367214640054679146410546801464605468514647054686146590546981465805469714663054702146640547031466605470514135053706)
 (.leaf 1466805470714669054708146710547101467005470914674054713000000000001467605471500000000000146790547180000000000014683055030146820550291468705503414686055033146890550361468805503514694055041146930550401469805504515237056044147030550501416805405014709055056152500560571471005505715251056058147130550601471205505914715055062141800540621472305507014722055069147270550741419305407514729055076141950540771473105507814732055079147430550901474205508914752055099147510550981476205510914763055110147710551181477005511714773055120142380541201478105512814782055129147970551441479605514314804055151148050551521481905516615360056167148210551681536105616814849055222000000000001485005522300000000000148630552651539205626414868055270153980562701488305537414882055373148860553771541605637814889055380148900553811489105538214890055381148940553851489505538614906055402000000000001491105540715438056407149120554081543805640714922055418149230554191492505542115453056422149290554251545605642514933055429154610564301494805544414949055445149570554531441405445314968055464149690554651497105546714972055468149730554691497205546814976055472144330544721498105547714980055476149840554801498505548114988055484149870554831499405549014995055491150000554961552705649615003055499150040555001500505550115004055500150070555031553505650415008055504155350565041501205550815539056508150140555101501505551115020055516150190555151502405552015550056519))
 (.node 1 (.leaf 1502505552115026055522150300555261502905552515034055530150350555311504005553615041055537150430555391504205553815046055542150470555431505205554815051055547150570555531505805555415061055557150600555561506605556214523054562150700555661506905556515077055573150780555741509105558715092055588150940555901455205459115101055597151000555961510905560515110055606151150556111564205661115117055613156440566131512605562215125055621151290556251513005562615143055639151420556381514505564115672056641151480556441460605464515155055651151560556521517305566914629054668151760556721463305467215181055677157080566771518205567815709056678151840556801518505568115187055683151860556821520005569715199055696152070557041573605670515209055706152100557071521205570915213055710152210560280000000000015225056032152240560311524205604915241056048152460560531470605505315248056055152490560561525605606315255056062152590560661526005606715270056077152710560781527705608415276056083152800560871474005508715287056094147470550941529305610015815057100152960561031581805710315298056105158210571061530405611115305056112153060561131476605511315312056119153110561181531505612215316056123153180561251531705612415321056128158440571291532305613015324056131153290561361532805613515341056148153420561491534805615514808055155153550561621535605616315358056165153590561661536405617115365056172153730562061537205620515376056209148410552081537805621114843055210)
 (.leaf 1539405626615910057266153970562691591305726915400056272154010562731541105637315410056372154140563761541505637715421056383159360573841542305638515424056386154260563881489705538815432056394000000000001543505640415434056403154370564061595105740615439056408159530574081544105641015956057411154450564141544405641315470056439154690564381547205644114945055441154750564441547605644515485056454154840564531550805647715507056476155140564831498705548315518056487155190564881552305649215524056493155440565131554305651215554056523160660575221555905652815558056527155620565311556305653215566056535160800575361556805653716080057536155980565671559705656615600056569156010565701560405657315605056574156130565821508605558215615056584156160565851561905658815092055588156280565971562705659615633056602156320566011564705661615648056617156530566221565205662115655056624156560566251566005662915661056630156640566331566305663215666056635161790576351566905663815668056637156740566431618805764415681056650156820566511569305666215165055661156990566681569805666715700056669151720556681570305667215704056673157050566740000000000015706056675000000000001571205668115711056680157270566961572605669515729056698162350576981573105670016237057700157350567041573605670515745057030157440570291574805703315747057032157510570361625005803515766057051157650570501576905705415770057055157760570611577505706015782057067000000000001579505708015273056080)))
 (.node 2 (.node 1 (.leaf 1580805709315285056092158100570951580905709415853057138158520571371585505714016354058139158570571421533405614115862057147153400561471587305715815351056158158750571601587605716115890057206158890572051589705721315896057212159000572160000000000015902057219000000000001591205726800000000000159170572730000000000015927057375159260573741593005737816437058379159430573911594405739215960057415159610574161596505742016473058421159670574231596805742415977057433159760574321598305743915469056438159860574421598705744315993057449159920574481600105745716000057456160080574641600705746316011057467160120574681601605747216015057471160190574751601805747416021057477165260584771602405748016025057481160260574821602705748316030057486165350584861603305748916034057490160370574931603805749416073057529160720575281607905753516080057536160850575411557205654116092057548165960585471609605755215583056552161010575571610005755616107057563161060575621611005756615596056565161140575701611505757116124057580156100565791612705758316128057584161320575881613305758916138057594161370575931614205759816647058598161440576001614505760116148057604161490576051615005760616656058607161530576091615405761016164057620156510566201617105762716172057628161750576311617405763016182057638161810576371618905764516694058645161900576461669505864616191057647166960586471619505765116700058651161990576551568505665416200057656162010576571620605766216205057661)
 (.leaf 1620905766515696056665162160576720000000000016218057679000000000001622105768200000000000162230576840000000000016224057687000000000001622705769015722056691162310576941673405869416233057696162340576971623905770216238057701162410577040000000000016256058041157560570411625805804316259058044162620580471576105704616266058051162650580501627005805500000000000162780580630000000000016280058065000000000001628305806800000000000162860580711628505807016289058074157890570741629205807715791057076162950580801680005908016297058082157970570821630105808616300058085163100580951681505909516313058098163140580991631905810416825059105163240581091683005911016336058121168420591221635905814416358058143163620581471636305814816366058151163670581521639605821116397058212163990582141640005821516419058272000000000001643005837216429058371164320583741592505737316435058377164360583781644205838416934059383164440583861644505838716451058393164520583941645405840200000000000164580584061595005740516478058429164770584281648405843516981059434164870584381648605843716494058445164930584441649505844615989057445165110584621651005846116514058465170120594651652905848016530058481165400584911703805949116543058494165440584951654605849716547058498165500585011604605750216554058505160490575051656705851816566058517165720585231606605752216580058531165810585321658605853716587058538165900585411658905854016593058544160880575441659805854916597058548))
 (.node 1 (.leaf 1660605855717104059557166100585611710805956116614058565166130585641661605856717113059566166190585701711805957116621058572166220585731662805857916123057579166330585841713205958516646058597166470585981667505862616676058627166820586331668105863216688058639171860596391669705864816698058649167010586521670005865116707058658162020576581671405866516715058666167200586710000000000016728058688167270586871675105903116750059030167560590361675505903516759059039167580590381676205904217251060043167650590451725306004516772059052167710590511677405905400000000000167770590570000000000016779059059162730580581678305906300000000000168030590831680405908416807059087163020580871681005909016811059091168190590991682005910016828059108168290591091683105911116832059112168350591151683405911416838059118163320581171685205913216853059133168640591441733906014316870059150173460601501687305915316874059154168780591581687905915916881059161168800591601689805921116899059212169050592181690605921916924059373169230593721692705937616928059377169410593901741606039116947059396000000000001695305940300000000000169540594040000000000016959059409000000000001696005941000000000000169610594110000000000016962059412000000000001697505942816974059427169780594311744806043216980059433169810594341698905944216988059441170010594541700005945317005059458170060594591701005946317009059462170220594751702105947417026059479170270594801703905949217040059493)
 (.leaf 1704305949617044059497170510595041705005950317055059508170540595071705905951217058059511170610595141706205951517066059519170650595181706805952117536060520170690595221753706052117078059531170770595301708205953517083059536170880595411708705954017092059545165940585451709605954916597058548170980595511709905955217117059570171180595711712505957816627058578171280595811712905958217144059597171450595981715205960516655058606171570596101715805961117164059617176340606181717905963217178059631171890596421765906064317199059652172000596531720305965617204059657172050596581767406065817207059660176760606601721005966317679060663172140596671721505966817217059670000000000001721805968300000000000172200596851722105968617241060033000000000001724606003817245060037172680600610000000000017272060076000000000001727306007700000000000172750600790000000000017281060085177220610841728806009217287060091172930600971729206009617303060107177450611071731906012317318060122173220601261732106012517323060127168480591281732406012816848059128173270601311685005913017329060133173300601341734306014717785061147173510601551687505915517357060161173560601601736006016417802061164173620601661780506116717365060169173660601701737006020716893059206173720602091689605920917386060231000000000001739706037200000000000174010603761740206037717409060384174100603851741406038917854061388174220603970000000000017426060406000000000001742906041100000000000))))
 (.node 4 (.node 2 (.node 1 (.leaf 1743106041300000000000174330604170000000000017444060428169740594271744706043117893061432174540604381745506043917462060446174610604451746606045017467060451174710604551791606145517478060462174770604611748406046817485060469174910604751793506147417495060479174960604801750506048917506060490175190605031704905950217527060511175260605101753206051617063059516175430605271754206052617548060532179930615321755206053617553060537175590605431755806054217563060547180090615481756406054818009061548175690605531710005955317571060555171030595561757206055618016061555175780605621710805956117583060567175820605661758606057017585060569175890605731712105957417596060580180420615811760606059017605060589176230606071762206060617640060624180860616251764106062517642060626176470606311764606063017655060639181000616391765806064217659060643176670606511766806065217677060661176760606601768006066417679060663176900606860000000000017692060688000000000001769806103717697061036177010610401770006103917703061042181460620421771006104917709061048177120610510000000000017720061082000000000001772606108818164062089177270610890000000000017732061094177310610931773506109717292060096177380611001773906110117744061106173020601061774906111117308060112177530611151775206111417770061132177710611331779006115217789061151177940611561779506115717798061160182360621611781106120517810061204178170612111781806121217822061216173790602161782406121817825061219)
 (.leaf 1782906122917828061228178320612320000000000017838061372000000000001784006137418290062375178420613761829206237717849061383178480613821785606139017857061391178620613960000000000017869061408000000000001787106141000000000000178810614201832706242017885061424178840614231788706142617442060426178900614291789106143017900061439179010614401790706144617908061447179100614491790906144817914061453183600624531791906145818365062458179200614591792106146017925061464179240614631793106147017932061471179370614761838206247517940061479179410614801794906148818395062488179530614921795406149317957061496175130604971797106151017970061509179730615121797406151317989061528184340625271799106153018437062530179990615381800006153918007061546184530625461801006154918009061548180120615511801106155018015061554184610625541802406156318023061562180300615691802906156818041061580180420615811804906158817604060588180560615951805706159618066061605176210606051807806161718079061618180830616221808406162318089061628176450606291810106164018102061641181050616440000000000018132061681181310616801813506168418136061685181530620491815206204818171062096181700620951817706210218178062103181840621091774806111018193062118181940621191821006213518211062136182170621421821606214118220062145177830611451822406214918223062148182260621511822706215218233062158182340621591825806221118257062210182610622141826206221518264062217182650622181826806222100000000000))
 (.node 1 (.leaf 1826906222200000000000182710622260000000000018276062231182750622301828206235100000000000182860623710000000000018301062387183000623861830706239318308062394183150624081831406240718317062410187370634091832506241818324062417183450624381876506343718350062443187700634421837306246617927061466183830624761838206247518386062479183870624801839606248918817063489183990624921840006249318408062501184070625001841006250318411062504184150625081841406250718419062512184200625131842206251518423062516184250625181842606251918432062525184310625241844706254018446062539184740625671847306256618479062572189010635731848506257818486062579184950625881849406258718498062591180530615921850706260018060061599185120626051806706160618514062607185150626081853106262418084061623185390626321809306163218544062637185430626361854606263918968063640185580626811855706268018561062684000000000001857106304718570063046185880630931858706309218591063096181700620951859806310319006064102186020631071860106310618606063111186070631121861506312018614063119186200631251820106212618631063136182110621361863506314018634063139186390631441821906214418641063146186420631471865506316019065064161186600631651866106316618668063173186690631741867206320500000000000186740632071825406220718679063212186800632131869906323218700063233187130633730000000000018714063374000000000001871606337600000000000187190633830000000000018724063388183030623891872506338918304062390)
 (.leaf 1872706339118305062391187400634121874106341318752063424183310624241876606343818765063437187690634411917606444118771063443187700634421877406344619181064446187750634471918206444718786063458183650624581879706346918798063470188080634801880906348118821063493188220634941882806350018406062499188340635061841306250618839063511188400635121884506351718846063518188470635191884806352018851063523184310625241886606353818865063537188910635631889206356418896063568184750625681889906357118900063572189100635821891106358318919063591184990625921892106359318499062592189300636021850906260218933063605189340636061893906361118938063610189410636131894206361418943063615189420636141895306362518954063626189640636361896306363518967063639189680636401897006364200000000000189750636801897406367918978063683000000000001898106404518980064044189970640931899606409219008064104190070641031901506411119016064112190180641141860906311419022064118186130631181903506413119034064130190370641331862706313219043064139190420641381904606414219457065142190630641591906406416019071064167190720641681907506417118666063171190810642071908006420619083064209186760632091909106421719507065218190970642231869106322419100064226186920632251910406423019103064229191090642350000000000019118064352000000000001911906435300000000000191360643930000000000019140064403000000000001914406440919143064408191540644191874806342019159064424187510634231916206442719163064428)))
 (.node 2 (.node 1 (.leaf 1916706443219166064431191870644521918606445119189064454191900644551920206446719201064466192160644811921706448219232064497192330644981923406449919233064498192430645081924206450719247064512188400635121925006451519249064514192520645171884606351819271064536192700645351927806454319277064542192800645451927906454419290064555188820635541930406456919725065569193070645721972906557319309064574189030635751933006459519331064596193340645991892806360019344064609189360636081935406461919355064620193600646251936106462619371064636193700646351937606467300000000000193790646761897106367619382064679189740636791938506468219386064683194090650941940806509319414065099198270660981942106510619011064107194250651101983906611019428065113194290651141943106511619432065117194350651201943606512119439065124194400651251944206512719030064126194500651351945106513619453065138190410641371945606514119870066141194580651431945706514219461065146194620651471946406514919465065150194730651581988806615919476065161198900661611948606517119487065172194890651740000000000019492065177000000000001949606520719495065206194990652101950006521119501065212190860642121950406521519505065216195080652191909406422019517065228191010642271951906523019518065229195220652331952306523419532065350191170643511953606535419537065355195460653840000000000019547065385199650663841954806538619966066385195520653901955306539119568065412191470644121957506541919574065418)
 (.leaf 1957706542119157064422195850654292000406643019588065432195890654331959406543819595065439196050654492002306644919608065452196070654511961406545819193064458196170654611961806546219619065463200360664621962406546820041066467196320654761963106547519637065481196380654821964106548519221064486196510654951965006549419667065511196660655101967406551819254064519196780655221967906552319698065542192770645421971506555919294064559197240655681972306556719734065578193130645781973806558219317064582197410655851932006458519744065588197430655871974606559019325064590197560656001975706560119761065605193410646061976206560619342064607197640656081934206460719767065611197680656121976906561319768065612197700656141934806461319773065617197740656181979006563419369064634197920656362021106663719795065639000000000001980106567819380064677198050656822022106668119806065683198070656841981106604200000000000198310661022024706710319832066103198330661041983706610819838066109198420661131984306611419848066119198470661181985106612219852066123198550661261985406612519863066134198640661351987406614520289067145198760661472029006714619880066151198810661521988706615820302067158198950661661989606616719900066171199010661721990506617619904066175199070661781990806617919911066182000000000001992106621219920066211199240662151992506621619932066223199310662221994206623319943066234199520663490000000000019955066352203720673531995806635500000000000))
 (.node 1 (.leaf 1996106637819960066377199630663800000000000019968066387199670663861997006638920385067389199760664020000000000019987066413199860664121999906642520000066426200100664361959106543520013066439200140664402001606644220430067442200170664432043206744420028066454204430674552002906645520443067455200380664642003706646320040066466204530674652004506647119627065471200470664731962906547320054066480200530664792005606648220471067483200580664842005906648520074066500200750665012007806650420079066505200840665102008306650920091066517200900665162009406652019676065520200980665241968006552420099066525196810655252011206653820111066537201180665442011706654320125066551201240665502013506656119717065561201400665662014106656720147066573197290655732015206657819733065577201540665801973606558020156066582201570665832015806658419739065583201620665881974306558720166066592201650665912016906659520170066596201780666041975906560320183066609201840666102018906661520190066616202060666321978706563120210066636000000000002021606667620215066675202170666771980006567720220066680202210666812022506668500000000000202270670390000000000020230067042202310670432024206709820241067097202500671062024906710520253067109202540671102026606712220680068122202720671281985806612920285067141207000681422028706714320701068143202920671482070606814820300067156207140681562030106715720302067158203050671611989106616220307067163203080671642031706717319903066174)
 (.leaf 2032406718019910066181203260671822032706718320336067210203350672092034606722019930066221203540672281993606622720359067233203600672342036706734800000000000203710673520000000000020373067354000000000002037406737600000000000203810673850000000000020384067388208060683882038606739000000000000203870673910000000000020390067402000000000002039206740419978066404203960674081998106640720405067417199910664172040806742019995066421204090674211999506642120412067424204110674232041306742520829068424204190674312000606643220446067458204450674572044906746120450067462204570674692045606746820460067472208760684712047006748220471067483204830674952048406749620492067504204930675052050606751820505067517205090675212050806752020520067532201060665322052406753620523067535205290675412011506654120547067559205460675582055006756220136066562205650675772015006657620573067585205720675842058106759320580067592205860675982058506759720590067602205910676032059306760520592067604205980676102018406661020600067612206010676132060706761920608067620206100676222061106762320612067624201980666242061406762620200066626206160676282020206662820619067631206180676302062606767220212066672206290676752021406667420631067677206320676782066506810721076069108206660681082066706810920674068116202610671172067606811820263067119206780681202026406712020685068127210950691272068706812920273067129206900681322027606713220695068137206960681382069906814120700068142)))))
 (.node 8 (.node 4 (.node 2 (.node 1 (.leaf 2071006815220709068151207430681850000000000020744068186000000000002075906821520758068214207610682172034406721820764068220207650682212076806822420349067223207690682252035106722520771068227203530672272077506823120774068230207790682352078006823620788068351207870683502079106835420792068355207950683772079406837620804068386208030683852080706840200000000000208110684062123806940620815068410212410694092082306841820822068417208300684252082906842420834068429204170674292083706843220838068433208410684362126806943620842068437208430684382084806844320849068444208560684512085706845220859068454204430674552086406845921290069458208820684772088106847620884068479204670674792088706848220888068483208910684862047506748720895068490208960684912090006849520901068496209080685032090906850420927068522213530695212093006852520514067526209420685372094306853820953068548205360675482095706855220540067552209620685572054406755620977068572205590675712098906858420988068583209910685862099206858720995068590209960685912100106859621427069595210050686002143206960021009068604210100686052101106860621010068605210140686092144106960921018068613210190686142103506863020618067630210370686320000000000021042068673210410686722105106868220636067682210680691000000000000021078069110210790691112108406911620675068117211060691382110506913721110069142207000681422112206915421549070154211270691592112806916021136069168207270681692113806917020729068171)
 (.leaf 2114406917621145069177211560691882115706918921158069190000000000002117906921821178069217211810692202076506822121189069228211900692292119106923020774068230211920692312077406823021195069234211960692352120106924000000000000212020692410000000000021217069356212180693572122006937700000000000212390694072168007040721243069411216840704112124606941421247069415212550694232125406942221259069427216990704262126406943221265069433212670694352126806943621272069440217140704412127806944621277069445212810694492128206945021287069455212880694562129606946420868068463213110694792131006947821313069481213140694822132006948821321069489213240694922089706849221325069493208980684932132706949521328069496213310694992133006949821332069500000000000002133506950321336069504213470695152178807051521349069517217900705172135406952221794070521213560695242135706952521367069535209400685352138606955420959068554213920695602139306956121399069567209730685682140506957321406069574214080695762098106857621411069579214100695782141406958221855070582214290695972143006959821439069607214380696062144306961121442069610214460696142188707061421448069616218890706162145006961821891070618214520696202189407062121456069624214570696252145806962621899070626214610696292190207062921470069674214690696732147306967721047068678214750696792104806867921478069682214790696832149707010221939071102215080701132108106911321510070115210820691142151207011721086069118))
 (.node 1 (.leaf 2151507012021089069121215190701242109106912321521070126215200701252153107013621530070135215350701402153607014121541070146211150691472154407014921117069149215460701512154707015221553070158215540701592156007016521559070164215680701732114206917421586070191211600691922158807019321162069194215950702042159407020321598070207215970702062160207021121601070210216070702162160607021521615070224211840692232161807022722059071227216200702292206107122921624070233216250702342163307024200000000000216400703452120606934521642070347212070693462164607035100000000000216470703520000000000021648070353000000000002165107035621652070357216550703770000000000021667070393000000000002166807039400000000000216710703970000000000021677070404216760704032167907040621678070405216890704162213807141621691070418212500694182170107042821261069429217220704492172307045021734070461221820714602173607046321294069462217390704662129806946621747070474217460704732174907047621308069476217540704812175507048221758070485213170694852176107048821762070489217630704902176207048921768070495217690704962177607050300000000000217780705052133806950621783070510222320715102178407051122232071510218090705362136806953621818070545222660715442182107054821820070547218230705502138206955021825070552213840695522182707055421387069555218290705562138706955521844070571218430705702184807057521847070574218520705792185107057821857070584214170695852185907058621418069586)
 (.leaf 2186207058921863070590218640705912142306959121877070604218780706052188607061321887070614218950706222189407062121912070673219110706722191907068022374071681219400711032193907110221942071105219430711062194507110822394072109219460711092150307010821950071113219510711142195407111721953071116219620711252152007012521985071148215430701482198807115121547070152219900711532243907215421995071158219960711592199907116222000071163220030711662200407116722006071169220070711702201107117421569070174220250711882158407018922031071194220320711952203607120422035071203220430712112204207121022048071216220470712152205507122322054071222220580712262205907122722064071232220630712312206707123522068071236220730712412207407124222080071341000000000002208307134421638070343220950713562254207235722099071377000000000002210207138000000000000221040713820000000000022106071384000000000002211207139000000000000221130713910000000000022114071392000000000002212007139800000000000221210713990000000000022123071401221240714022213107140922130071408221360714142213507141322157071435221580714362216107143922162071440221670714452216607144422176071454217260704532217807145621729070456221850714632218407146222188071466217400704672219307147121744070471221950714732219407147222197071475221960714742220107147922202071480222140714922221507149322219071497222200714982222207150000000000000222240715020000000000022229071507000000000002223507151322234071512)))
 (.node 2 (.node 1 (.leaf 2223807151622237071515222420715202224107151922250071528218000705272225407153221805070532222570715352225607153422261071539218120705392227107154922270071548222850715632228607156422291071569218420705692229407157222743072571223000715782229907157722303071581223020715802230607158422755072583223180715962231907159722321071599218730706002232407160222773072601223290716072232807160622332071610227820726102233907161721889070616223420716202234107161922345071623223460716242235307163121904070631223660716732236507167222369071676219150706762237107167822822072678223870721020000000000022391072106223920721072240007211521951071114224010721162195307111622406072121219590711222240907212422410072125224170721322241807213322419072134219710711342243007214521982071145224350721502243607215122447072162228960731632245007216522449072164224530721682245407216922457072172224560721712246007217522012071175224640721792246507218022478072193224790721942249907221922500072220225060722262250707222722509072229225100722302251307223322512072232225160722362251707223722521072241000000000002252207224200000000000225270722470000000000022534072344229850733442253707234700000000000225390723540000000000022558072386225590723872256707239523027073396225750724032303407340322577072405230360734052258007240822579072407225880724162304807341722591072419230500734192259307242123053073422225960724242259507242322599072427230590734282260007242823059073428)
 (.leaf 2260207243022603072431226050724332215407143222611072439226120724402261607244422165071443226200724482261907244722624072452226230724512263207246023091073460226480724762264707247522650072478231090734782265307248122654072482226580724862265907248722664072492226650724932266907249722220071498226730725012222307150122675072503226760725042267707250500000000000226920725202269107251922697072525226960725242270507253323164073533227130725412317307354222724072552227230725512272707255522728072556227340725622273507256322739072567227380725662274607257422745072573227520725802275107257922758072586223090715872276507259323223073592227690725972322707359622772072600227730726012277607260423235073604227920726202325107362022797072625223480716262279907262722349071627228040726322326307363222806072634000000000002281107263923270073639228170726732281607267222836073103000000000002284007310722841073108228440731112284507311222853073120228520731192285607312322857073124228590731262241207212722862073129224150721302286907313622870073137228790731462288007314722890073157233470741582289907316622898073165229030731702290407317122914073181224670721822292007318722473072188229350732042293407320322939073208229380732072294507321422944073213229550732242250307222322960073229225100722302297107324022520072240229790732480000000000022982073341000000000002298807334700000000000229920733530000000000022993073354225380723532301507338423014073383))
 (.node 1 (.leaf 2302007338922561072389230300733992302907339823033073402234910744022304507341423044073413230470734162350607441723054073423235110744222305607342523513074424230640734332260407243223067073436230680734372307207344123529074440230750734442307407344323078073447226190724472308307345223082073451230860734552308707345623094073463230930734622309707346622637072465230990734682264007246823103073472231020734712311007347923109073478231120734812311307348223120073489231210734902312607349523125073494231290734982267107249923138073507000000000002315307352223152073521231590735282315807352723169073538227090725372317607354523175073544231780735472317707354623181073550236390745502319007355922731072559231950735642365407456523198073567231970735662320307357222744072572232110735802321007357923221073590227630725912322507359423224073593232420736112370007461123248073617232470736162325207362123251073620232590736282325807362723262073631232630736322326707363622808072636232690736382372707463823278073672000000000002328107367523280073674232820736762374107467723294074105237550751052329707410823296074107233010741122284607311323303074114233040741152330607411723305074116233130741242285707312423315074126233160741272332207413323323074134233270741382332807413923338074149233390741502336007417123359074170233620741732290607317323366074177233650741762337807418922923073190233900742042338907420323396074210233950742092339907421323398074212)
 (.leaf 2340207421623861075215234040742182294907321823406074220238660752202340907422322954073223234130742272295807322723421074235238820752362342307423722968073237234270742412342807424223432074246234330742472344207434523902075346234490743542391007535523451074356234520743572345407435923455074360234610743722346007437123465074376230070733762347507438623937075386234840743952302607339523489074400234900744012349607440723495074406235000744112304107341023502074413239650754142351507442623977075426235170744282351607442723520074431230630734322353107444223074073443235340744452399607544523537074448235360744472354007445123539074450235460744572354507445623549074460235480744592355607446723555074466235670744782402907547823570074481235710744822357607448723118073487235800744910000000000023584074495235830744942359107450223592074503236030745140000000000023609074520236080745192362307453423165073534236250745362316707353623638074549241000755492364507455623644074555236500745612365107456223658074569241190755682366707457824128075577236720745832367307458423675074586232180735872367907459023680074591236930746042369407460523695074606236940746052369707460823240073609236990746102324107361023703074614237040746152370607461724169075618237070746182416907561823719074630237200746312373107464200000000000237320746430000000000023735074646000000000002375407510400000000000237580751082375707510723761075111237620751122376907511924227076119))))
 (.node 4 (.node 2 (.node 1 (.leaf 2377707512723778075128237920751422425007614223806075156238070751572381307516323353074164238250751752336407417523828075178233680741792383007518023831075181238470751970000000000023862075216238610752152386807522224329076222238720752262433407622723877075231234170742312387807523224339076232238800752342388107523523887075241243480762412389007524424351076244238920752462389307524723896075340000000000002389907534324362076344239000753442390107534523903075347000000000002390607535100000000000239090753542436807635423911075356239100753552391407535923915075360239180753630000000000023923075372234600743712393207538123469074380239540754032349207440323959075408239580754072396107541023962075411239750754242443307642323979075428239780754272398107543024439076429239850754342398607543523999075448235360744472400107545024460076450240050754542400407545324012075461240110754602401407546323553074464240180754672401707546624021075470244800764702402407547324483076473240260754752448507647524032075481240330754822403607548500000000000240370754860000000000024045075494235830744942404807549724506076496240500754992450907649924051075500245090764992405507550424056075505240620755110000000000024067075516240660755152407007551923608074519240730755220000000000024083075532240820755312408607553524085075534240880755372408907553824093075542236310745422409707554624096075545241070755562410607555524111075560241100755592411607556524117075566)
 (.leaf 2413307558224132075581241380755872459707658724144075593241450755942415007559923689074600241510756002415207560124166075615241670756162417307562224172075621241780756272417707562624181075630241820756312418807563724189075638241940756430000000000024197075646000000000002419907567324198075672242020756760000000000024214076106000000000002421607610824668077108242190761112422007611224221076113242220761142422607611824227076119242290761212422807612024237076129242380761302424107613324242076134242460761382424707613924257076149247090771492425907615124260076152242620761542426307615524267076159242680761602428107617324280076172242840761762473607717624286076178242870761792429407618624295076187242980761902384107519124300076192238430751932430307619523846075196243130762062431207620524315076208247670772072432207621524775077215243240762172477707721724326076219247800772202433107622424785077225243320762252478607722624336076229247890772292434107623424795077235243710763572437207635824384076374243830763732438607637623926075375243890763792393007537924392076382243930763832439707638724396076386243980763882393907538824403076393244020763922440607639624405076395244240764142396607541524426076416239680754172442807641824429076419244510764412445007644024470076460244690764592447207646224920077462244860764762448707647724489076479244880764782449807648824499076489245100765002450907649924513076503245140765042452107651124522076512))
 (.node 1 (.leaf 2452707651724526076516245300765200000000000024538076528245370765272453907652924080075529245430765332454407653424549076539240900755392455107654125000077542245640765542410407555324566076556250130775552457207656224573076563245780765682457907656924587076577245860765762459007658024589076579245940765842459307658324605076595246040765942460607659624607076597246160766062461707660724619076609241600756092462107661124622076612246260766162507407761624631076621246300766202463807662824637076627246430766332509107763324647076637246480766382465307664300000000000246570766730000000000024665077105000000000002467007711025113078110246770771172512007811724680077120251230781202468907712924690077130246930771332469407713424696077136251390781362470407714424253076145247140771542471507715524719077159247200771602472507716524273076165247280771682472707716724730077170247290771692475507719524756077196247880772282523007822724798077238252410782382480307724300000000000248100773510000000000024811077352000000000002481207735300000000000248200773610000000000024827077369248260773682483307737524832077374248360773782483707737924838077380248370773792484007738224841077383248420773842484107738324848077390243990763892485507739724407076397248570773992441007640024867077409244190764092487507741724876077418248890774312488807743024891077433244430764332489507743724896077438249000774422490107744324905077447253470784482490807745024907077449)
 (.leaf 2491107745324462076452249150774572535507845624919077461249200774622493707747924936077478249400774822449307648324943077485249420774842494607748824499076489249480774902494707748924954077496249530774952496507750724517076507249760775182497507751724978077520000000000002498107752324980077522249860775282498507752724997077539249980775402500507754725006077548250170775592501607755825021077563254620785632502307756524575076565250260775682502707756925029077571254710785722503307757525032077574250440775862459707658725047077589250480775902505607759825057077599250580776002505707759925061077603246130766032506607760825507078608250680776102506907761125075077617250740776162507807762025077077619250820776242552307862425093077635250920776342509807764024650076640251010776452465507664525109078106000000000002511707811425118078115251300781272468607712625131078128255730791282513407813125135078132251500781472515107814825175078172251760781732519607819324753077193252130782102521207820925221078218256630792182523407823125676079231252560783560000000000025257078357000000000002528207838324841077383252850783862484307738525305078406248640774062531707841825318078419253210784222532007842125325078426257600794262533007843125764079430253340784352576907943525336078437253370784382534507844625344078445253530784542535207845325354078455257890794552536307846425362078463253650784662492307746525374078475258080794742538007848125381078482)))
 (.node 2 (.node 1 (.leaf 2538907849025388078489254040785052540307850425407078508249660775082541107851224971077513254250785262542407852525430078531254310785322543207853325431078532254360785372499407753625439078540249990775412545707855825016077558254590785602589407956025461078562254620785632546407856525900079566254660785672590107956725486078587259210795872549207859325927079593254960785972549707859825499078600259330795992550207860325501078602255050786062550607860725518078619255170786182552407862525523078624255260786272552707862825530078631250900776322553707863825538078639255440786470000000000025551079106251080781052555307910800000000000255550791100000000000025558079113255590791142556407911925563079118255670791222512507812225571079126260040801262557807913325579079134255850791402558607914125588079143255890791442559107914625592079147255940791492515207814925596079151255950791502560007915525601079156256050791602603708015925607079162256080791632563107918625190078187256320791872563307918825644079199252020781992565907921426092080214256600792152609308021525661079216260940802162566407921926097080219256700792252610308022525673079228000000000002567407922900000000000256770792320000000000025679079234000000000002568207923700000000000256860792440000000000025694079351000000000002569607936200000000000257000793662526507836625710079376257090793752571307937926140080379257160793822614208038125719079385257200793862572507939125724079390)
 (.leaf 2572807939425294078395257320793982573307939925742079408253070784082574407941025309078410257470794132531207841325751079417257520794182575407942025319078420257590794252576007942625767079433261940804332577207943825773079439257750794412620208044125783079449262100804492578707945325786079452257920794582622008045925793079459262200804592579407946026221080460257950794612622208046125798079464262250804642580007946626226080465258060794722580507947125811079477258120794782581407948026241080480258180794842624508048425819079485262460804852582007948626246080485258210794872582207948825826079492258250794912582807949425829079495258300794962583107949725837079503258360795022584407951025408078509258500795160000000000025860079526258590795252587107953725435078536258750795412587607954225877079543258780795442588307954925882079548258850795512588407955025888079554258890795552589007955625891079557259160795822548107858225922079588263500805892592407959025925079591259290795952593007959625936079602259350796012593907960525940079606259500796162594907961525952079618263780806172595907962525958079624259640796302596307962925979079647000000000002598808011000000000000259910801130000000000025998080120264250811202600308012526429081124260080801302643408112926010080132260110801332602208014426023080145260260801482559307914826030080152264570811522603108015326032080154260460801682561307916826051080173256170791722605408017625620079175))
 (.node 1 (.leaf 2605608017825623079178260570801792562407917926059080181260600801822606208018426061080183260670801892563507919026068080190256360791912608908021126088080210260910802132651808121326112080246000000000002611408024800000000000261250803642569707936326128080367261270803662614708038626148080387261510803902615008038926155080394265920813942615708039625730079396261620804012573507940126175080414261760804152618008041926181080420261870804262662508142726191080430261900804292620108044026202080441262130804522665008145226216080455266540814562622408046326661081463262280804672622708046626230080469266670814692623508047425808079474262380804772581207947826251080490000000000002625808049725831079497262600804992625908049826261080500258340795002626308050225835079501262670805062584007950626272080511262710805102627408051325847079513262750805142627608051526280080519258520795182629208053126291080530262950805342629408053326298080537258700795362630108054026302080541263090805482630808054726342080581259150795812634408058326782081584263530805922635208059126360080599267960815982636408060326363080602263690806082680708160926372080611263710806102637508061426376080615263820806212681808162026385080624259580796242638808062726387080626263920806312639308063226398080637259710796372640308064526841081646264150811100000000000026423081118264240811192642608112126427081122264380811332601208013426439081134264400811352644308113800000000000)
 (.leaf 2644508114026880082141264480811432644908114426451081146260240801462646108115626462081157264660811612646708116226469081164264700811652647408116926475081170264770811722647608117126480081175269130821742649608119126069080191264970811922649808119326505081200260790802012651308120826086080208265170812122651808121326529081224000000000002654408124526543081244265570813590000000000026558081360000000000002656608136826565081367265860813882614908038826591081393270270823932659608139826595081397266020814042616508040426605081407266060814082660808141027044082410266090814112704508241126613081415266140814162661908142127055082421266290814312662808143026634081436270700824362663508143727072082438266390814412707508244126642081444270780824442666508146726664081466266700814722666908147126676081478266770814792668008148227117082483266900814922625308049226695081497266960814982670608150826269080508267080815102627008050926714081516262780805172671908152126282080521267210815232672008152226731081533267300815322673508153726736081538267420815442674308154526745081547267440815462675108155300000000000267530815552675208155426756081558000000000002677008157226333080572267750815772633908057826777081579272140825802677908158126780081582267830815852678408158626788081590267890815912680008160226799081601268030816052636708060626810081612268090816112681208161426813081615268210816232682208162426825081627268240816262682908163126393080632))))))
 (.node 16 (.node 8 (.node 4 (.node 2 (.node 1 (.leaf 2683608163826837081639268420816470000000000026851082112000000000002685308211400000000000268700821312729908313126874082135273030831352688708214826888082149268890821502731808315026893082154273220831542690608216726471081166269150821762691408217526917082178273450831772691908218027348083180269230821842735208318426924082185273530831852692508218627354083186269270821882692608218726932082193264980811932693708219826502081197269400822012693908220026947082208269460822072694908221027379083211269610822220000000000026962082223000000000002696408222500000000000269690822302697008223126976082246269770822472697908224926980082250269810822512698208225226989082355000000000002699008235600000000000270030823692700208236827005082371265680813702700708237327006082372270120823782657608137827025082391270260823922703208239827031082397270360824022746608340227037082403274670834032703808240427467083403270560824222705508242127060082426274900834262707608244227075082441270870824530000000000027096082462275260834622710408247027103082469271080824742753808347427109082475275380834742711208247827113082479271280824942712908249527130082496275590834952713208249827562083498271410825072670408150627157082523271580825242715908252527160082526271630825292716208252827167082533275960835322717108253726736081538271790825452674308154527185082551271840825502718808255400000000000272040825702676808157027207082573272060825722720808257426772081574)
 (.leaf 2722008258627221082587272260825922679108159327234082600272330825992723908260527670083606272400826062724108260727258082624276870836232726808263427697083633272700826362683408163627272082638272730826392728108311300000000000272840831162728308311527287083119277180841202729008312227720084122273000831322729908313127310083142273110831432732408315627325083157273300831622732908316127338083170273370831692735008318227781084183273620831942693308219427363083195269340821952736408319626935082196273710832032694208220327395083227000000000002739608322800000000000274010832420000000000027405083246278360842462741108325200000000000274150833510000000000027420083356278500843562742408336027853084359274320833682743108336727436083372270060823722744308337927444083380274470833832701808238427460083396278900843962746208339827891084397274640834002746508340127474083410274750834112748608342227485083421274880834242791808442427496083432270650824312749708343327926084432275060834422750508344127511083447275100834462751408345027515083451275190834552795008445627520083456279500844562752108345727951084457275220834582795208445827523083459279530844592752908346500000000000275350834712753408347027539083475275380834742754308347927973084479275450834812797608448227553083489275520834882755508349127125082491275580834942798908449527561083497279910844972756708350327136082502275700835062756908350527574083510280050845112757508351128005084511))
 (.node 1 (.leaf 2757608351228005084511275790835152758008351627583083519271530825192758508352128014084520275880835242758908352527592083528275910835272759408353028024084530275990835352759808353427603083539271730825392760608354227607083543276150835512761408355027618083554271890825552762208355827623083559276260835622719708256327641083577280700845762764308357927644083580276460835822721608258227658083594276590835952766108359727660083596276650836012766408360027668083604280990846052767608361228105084611276780836142724708261327679083615272490826152768308361927682083618277140841162771308411527733084135277340841362774708414927317083149277580841602775908416127766084168277650841672776808417027337083169277710841732734108317327788084190277870841892779608419827797084199278070842092823308520927809084211278100842122781708421900000000000278220842242782308422527825084227278260842282783508424500000000000278390842490000000000027847084353000000000002785208435828271085358278550843612785408436027861084367274300833662786508437128283085370278750843812744508338127883084389274530833892790208440827471083407279050844112832508541227914084420283340854212792208442828341085428279300844362793108443727933084439283530854402794108444727940084446279440844502836408545127949084455283690854562795408446028373085460279580844642837708546427963084469279620844682796708447327966084472279720844782839108547827975084481279760844822798208448827981084487)
 (.leaf 2798508449127984084490279880844942840708549427993084499279920844982799608450227566083502280010845072800208450828007084513284250855122801208451828431085518280190845252759008352628020084526275900835262803008453628029084535280310845372845008553728035084541280360845422804108454728040084546280470845532804608455228054084560276240835602805608456228057084563280600845662806108456728069084575280680845742808008458627650083586280840845902808508459128093084599276620835982809608460228515085602280980846042809908460528107084613285250856122811408462028534085621281210846272769208362828128084634281270846332813008463628550085637281320846380000000000028135085111000000000002813808511400000000000281390851150000000000028142085118285630861192814608512228145085121281480851242856708612328152085128281510851272815908513528160085136281640851402773808414028166085142281670851432817008514628171085147281790851552818008515628185085161281860851622818908516528190085166281910851672819008516628194085170281950851712819808517428618086174282060851822778008418228208085184282090851852821508519128214085190282200851962864008619628230085206282290852052823708521328238085214282390852152865908621528243085219000000000002825208522828672086228282860853732828508537228294085381282950853822829808538528299085386283010853882830208538928305085392283060853932831708540428316085403283210854082832008540728324085411287450864122832608541328746086413)))
 (.node 2 (.node 1 (.leaf 2832708541428328085415283300854172833108541828344085431287630864302834808543500000000000283630854502878408645128365085452287860864532836808545528789086456283780854650000000000028380085467283790854662838508547228799086471283870854742880208647428394085481288090864812839608548328811086483284010854882798108448728414085501284130855002841608550328831086503284190855062883508650728426085513288400865122842808551528842086514284400855272802108452728452085539284510855382845608554328457085544284590855462845808554528466085553280460845522846908555628468085555284760855632805708456328482085569284810855682849108557828492085579285010855882850208558928505085592285060855932850808559528089084595285090855962808908459528512085599285110855982851808560528519085606285230856102852208560928528085615289420866142854908563628550085637285550861110000000000028557086113285560861122856208611828563086119285720861282857108612728578086134285770861332858108613728161085137285980861542859908615528604086160286030861592860908616528610086166286220861782820308517928624086180282040851802862508618128205085181286370861932905208719328642086198290570871982864308619929058087199286460862022822608520228648086204290630872042865108620729067087208286530862092906708720828656086212286570862132866208621800000000000286640862202824508522128667086223286680862242866908622528668086224286710862272867208622828674086230000000000002870708637428287085374)
 (.leaf 2870808637528287085374287120863792829208537928715086382291270873822871608638329127087382287190863862872008638728727086394287280863952874008640728320085407287420864092874108640828748086415291600874152875408642100000000000287660864330000000000028767086434000000000002877308644028772086439287800864472836008544728783086450291920874512880308647528802086474288140864862881308648528817086489000000000002882008649228819086491288240864962882308649528828086500288270864992883208650428831086503288340865062924008750728836086508292410875082884808652028849086521288510865232925608752328853086525292580875252885508652729259087526288590865312926508753228862086534288630865352887008654229275087542288730865452887408654628876086548284610855482888708655928886086558288910865632889208656428902086574000000000002890308657500000000000289090865812891008658228911086583293160875832891408658628915086587289170865892891808659028921086593285060855932892208659428507085594289240865960000000000028926086598285110855982892908660128930086602289370866092893608660828944086616289430866152896208663428961086633289670866450000000000028974087115289730871142898908713028988087129289900871312857508613128995087136293980881362899908714029000087141290140871552901508715629019087160290180871592902708716829026087167290290871702903008717129035087176290340871752904208718329445088183290480871892863408619029056087197290550871962906408720529468088206))
 (.node 1 (.leaf 2906908721029472088210290770872182866108621729081087222294840882222908708722829489088227291030873582910208735729108087363286950863622911008736528698086365291150873702951708837029119087374291180873732913108738629533088386291330873882913408738929141087396287290863962914908740428736086403291540874092915308740829156087411295580884112915808741329159087414291630874182956608841929172087428000000000002917308742900000000000291810874402918008743929187087446291860874452919008744929191087450292110874782960908847829212087479296100884792921308748029611088480292250874922962308849229236087503292350875022923908750629638088507292430875102924208750929244087511288390865112924508751228840086512292620875292926308753029268087535292670875342928108754829282087549292840875512928308755029288087555296870885562929408756129692088561292980875652929908756629300087567000000000002930108756829699088568293030875700000000000029304087571297020885712930608757300000000000293090875762970808857729318087585293170875842932208758929323087590293250875922892008659229334087601293350876022933908760629340087607293420876092934108760829357087624289520866242936208762929759088628293680876350000000000029374088112000000000002938408812229383088121293950881332939608813429416088154294170881552942408816229822089163294260881642942508816329428088166290250871662943208817029433088171294340881722983208917329435088173294360881742944008817829836089177)
 (.leaf 2944208818029839089180294470881852984508918629448088186298450891862944908818729450088188294620882002946108819929465088203294660882042947608821429073087214294820882202987908922029492088230000000000002950708836029506088359295090883622950808836129519088372299140893712952208837529919089376295240883772992108937829525088378299220893792952708838029924089381295280883812992408938129530088383299270893842953108838429532088385295370883902993308939129546088399295470884002955008840329549088402295640884172995908941729570088427000000000002957508843729574088436295770884392917908743829580088442291830874422958108844329184087443295880884502958908845129594088456000000000002959608846500000000000295980884672999608946629606088475296050884742960808847730008089478296200884892961908848829627088496296260884952963208850129631088500296340885032923508750229637088506296380885072964908851829648088517296510885202965008851929652088521292540875212965508852429256087523296590885283005808952829661088530296620885312967008853929669088538296730885422967408854329676088545296750885442968108855029283087550296850885540000000000029691088560296900885592969308856230092089562297040885732970508857429709088578297100885792971108858030110089580297130885823011208958229716088585000000000002971808858700000000000297300885992972908859829731088600297320886012973408860329735088604297370886062973808860729752088621293530876202976208863129761088630))))
 (.node 4 (.node 2 (.node 1 (.leaf 2978308912429386088124298080891492941108814929810089151294140881522981208915329813089154298210891623022209016329826089167298270891682983008917129831089172298350891763023509017629852089193302530901942986008920129859089200298630892042986408920529874089215298750892162988408922530285090226298850892260000000000029891089232000000000002989408923529895089236299030893603030009035929907089364299060893632990908936629513088366299110893682951508836829944089402299430894012995508941329956089414299640894260000000000029967089429000000000002999308946300000000000300030894733000208947230007089477300080894783001608948630015089485300200894903001908948930037089507300380895083004308951330042089512300470895172964708851630066089536300650895353007608954630075089545300790895493007808954830086089556000000000003008908955900000000000300930895633009208956230094089564000000000003009508956500000000000301010895713010208957230105089575000000000003010708957730108089578301160895863011508958530120089590301210895913012608959629727088596301270895972972708859630131089601301320896023013408960430135089605301450896153014608961630158089628297590886283016108963129761088630301630896330000000000030164089634000000000003017309011430172090113301800901213017909012030183090124301840901253018909013029789089130301930901342979308913430196090137301950901363019809013929797089138302000901412980108914230205090146298050891463021409015530215090156)
 (.leaf 3022109016230222090163302240901653062009116630230090171298310891723024109018230636091182302460901873024509018630250090191302510901923026009020130259090200302620902033065709120330275090216306700912163027709021830276090217302840902250000000000030298090357000000000003030609036530305090364303120903712991408937130316090375299180893753032209038129925089382303230903823032409038330334090394299370893953034609040630737091407303500904103074109141130352090412303530904133035809041800000000000303710904393037009043830377090445299830894453037909044730380090448303900904642999408946430394090468299980894683039509046929999089469303970904713039609047030400090474303990904733041409048830413090487304180904923041709049130421090495300250894953043109050530430090504304350905093043409050830436090510300390895093044109051530046089516304430905173004608951630447090521300520895223045609053030060089530304630905370000000000030465090539000000000003046709054130466090540304680905420000000000030469090543000000000003047109054500000000000304740905483085609154730480090554304790905533048209055630864091555304860905603048709056130492090566304930905673049509056930494090568304970905713049809057230500090574000000000003050209057600000000000305050905790000000000030506090580000000000003051009058430509090583305160905903051709059130520090594305190905933052109059530124089594305260906003090909160030541090615305400906143054309061730544090618))
 (.node 1 (.leaf 3054609062030547090621305490906233055009062430558090632000000000003056509111100000000000305690911153056809111430573091119305720911183058209112830581091127305850911313019109013230589091135309760921353059509114130201090142306030911493060409115030607091153306080911543061109115730612091158306310911773101809217730642091188306410911873065109119730650091196306640912103026909021030675091221310620922213067709122300000000000306820912300000000000030683091231000000000003069709136430696091363306990913663108709236530705091372310930923713070809137530317090376307200913900000000000030722091392303310903913072609139630336090396307300914003034009040030740091410311290924113075109143700000000000307550914413037309044130759091445307600914463076309144930764091450307740914653077509146630778091469303960904703078509147630786091477308020914933080109149230807091498304240904983081209150330428090502308160915073081509150630828091519312100925193083409152530451090525308380915293045509052930840091531304570905313084809153930847091538308490915403046609054030850091541304660905403085909155031241092550308760915673049309056730879091570000000000003088009157130881091572308830915743088409157530889091580000000000003089209158300000000000308970915883089609158730905091596312870925963090709159831290092599309330916243055009062430935091626305530906273093709162830936091627309400916310000000000030943091644305610906443094509164600000000000)
 (.leaf 3094709164800000000000309550921143056709111330958092117305710911173096209212131344093122309640921233096509212430974092133309750921343097909213831360093138309900921493099109215031010092169313920931703101209217130625091171310160921753101709217631028092187310270921863103009218931410093188310320921913141309319131037092196310360921953104209220131043092202310500922093104909220831054092213306670912133106009221900000000000310650922280000000000031073092345000000000003108109235931080092358310940923723109309237131096092374000000000003110209238231101092381311060923860000000000031109092391000000000003111309239531487093395311180924003111909240131135092417000000000003113609243800000000000311410924433075709144331144092446311450924473115309246200000000000311540924633152709346331157092466311580924673116109247030779091470311640924733116509247431175092484307920914833117609248530793091484311820924913080009149131196092505308130915043119909250831198092507312020925113120309251231204092513312050925143121809252731217092526312220925313084109153231224092533308420915333122509253430843091534312260925353084409153531237092546312360925453124009254931241092550312430925523124209255131245092554312460925553124809255731249092558312530925623125209256131255092564312560925653125909256800000000000312650925743163909357531267092576000000000003127109258031272092581312740925833127509258431276092585312770925863128309259230901091592)))
 (.node 2 (.node 1 (.leaf 3129309260231294092603312980926073167109360731301092610309190916103130209261130920091611313100926193168309361931312092621309310916223131809262730936091627313210926300000000000031324092644313230926433133309311100000000000313360931143133509311331340093118000000000003134309312131344093122313510931293135009312831353093131317280941313136309314131364093142313680931463098709214631372093150313730931513137609315430996092155313800931583099909215831382093160317580941613138709316531763094166313890931673176409416731396093174317710941743140409318231779094182314190931973179309419631421093199317970942003143009320831429093207314340932123180909421231438093216318130942163144009321800000000000314430933420000000000031447093346000000000003144809334700000000000314590933583107909235731462093361314630933623146409336331463093362314660933653146709336631469093368000000000003147609338000000000000314800933843184909438431483093387000000000003148509339300000000000314890933973111509239731491093399311160923983149309340131119092401314960934043149509340331501093409311270924093150309341131129092411315060934143150709341531510093439000000000003154109347731168092477315430934793117009247931544093480311710924803154809348431174092483315510934873117709248631552093488311790924883155409349031181092490315620934983192709449731570093506315710935073158209351831209092518315920935283159109352731600093536319670945373160309353931969094539)
 (.leaf 3161309354931241092550316220935583198909455931626093562000000000003162909356500000000000316330935690000000000031638093574316390935753164209357831269092578316460935823164709358331652093588000000000003165409359031653093589316570935930000000000031658093594316590935953167009360631671093607316730936093130009260931680093616313070926163168809362400000000000316990936443132309264331703093648000000000003171309411632075095116317170941200000000000031720094123000000000003173309413631357093135317370941403209809513931740094143313650931433176609416931765094168317700941733213209517331773094176317740941773178709419031786094189318030942063142809320631808094211318090942123181709434200000000000318190943443218109534431821094346321820953453182809435331829094354318320943573219309535631840094365318410943663184709438200000000000318520943870000000000031862094401322230954013186509440431495093403318670944063149909340731873094412322350954133187609441500000000000318780944420000000000031882094446322450954453188509444931520093449318870944513152209345131888094452318890944533189109445500000000000318940944640000000000031895094465000000000003190109447132265095472319110944813154509348131912094482315460934823191309448331546093482319190944893155309348931922094492315560934923192909449931928094498319320945023156609350231934094504319330945033194609451632308095515319500945203195109452131954094524319530945233195709452731958094528))
 (.node 1 (.leaf 3196009453031959094529319620945323232509553231965094535319660945363197009454031969094539319710945413197209454231973094543319720945423197709454731976094546319820945523161509355131983094553319840945543199609456600000000000319980945683199909456932002094572323650955723200909457900000000000320110945813201209458232013094583316470935833201609458631650093586320170945873165109358732020094590000000000003202209459232021094591320280945983202909459932030094600320310946013203309460332034094604320380946083240009560732041094611320420946123204609461632045094615320480946183204909461932056094626000000000003205709462700000000000320630946430000000000032065094645320660946463207209511331709094112320800951210000000000032086095127320850951263210309514432104095145321060951473210509514632108095149321090951503211109515232112095153321160951573211709515832119095160324730961613212109516232122095163321350951763213609517732139095180321400951813214209518332494096182321480951893214709518832161095202325130962013216209520331800094203321640952053216509520632168095209321670952083217709521800000000000321840953473218509534832187095350325410963503218809535132541096350321950953583254909635832199095362325520963613220209536532203095366322060953790000000000032210095383000000000003221509538800000000000322160953890000000000032220095398325690963983222509540332574096403322270954053257709640632230095408322310954093223709541500000000000)
 (.leaf 3225609545600000000000322570954640000000000032261095468318980944683226209546931899094469322640954713226509547232270095477322690954763228609549331923094493322920954993229109549832300095507323010955083230309551032304095511323110955183266509651832329095536323300955373233209553931969094539323330955403196909453932338095545323390955463234309555032342095549323530955600000000000032357095564323560955633235909556632358095565323670955743236609557332368095575323690955763237709558432015094585323780955853201509458532382095589320190945893238909559632390095597323950956023274909660232397095604327520966053240109560832400095607324050956123204209461232407095614320440946143241009561732411095618324290961170000000000032431096119000000000003243409612200000000000324350961233278209712232439096127324380961263244209613032089095130324460961343279409713432451096139328000971403245409614232453096141324550961430000000000032469096157324700961583248009616832828097168324830961713248409617232485096173324860961743250009618832499096187325210962093287009721032523096211325240962123252509621332873097213325330963420000000000032545096354325440963533255009635932551096360325530963623255209636132566096390000000000003256709639100000000000325710964003222209540032573096402325740964033257509640432924097404325820964113258309641232587096416000000000003259609643200000000000326050964513260609645232618096471322650954723263009648332629096482)))))
 (.node 8 (.node 4 (.node 2 (.node 1 (.leaf 3263509648832634096487326370964900000000000032642096495322880954953264809650132647096500326510965043301409750432658096511330210975113265909651233021097511326610965143302409751432664096517326650965183266909652232670096523326730965263267409652732682096535326810965343269709655032696096549327000965533270109655432703096556327040965573270709656032708096561327090965620000000000032711096564330740975643271509656833078097568327270965803237409558132736096589000000000003273809659132384095591327450965983239109559832755096608327540966073275809661133121097611327780971183277709711732785097125327840971243279109713132792097132327960971363279509713532797097137324490961373280409714433166098143328060971463245809614632808097148324600961483281109715132812097152328290971693319209816932832097172328330971733284609718632845097185328490971893285009719032861097201328600972003286309720332864097204328760972160000000000032889097350325410963503289009735132541096350328950973563254809635732903097364000000000003290809738500000000000329110973883291009738732914097391329150973923292309740332924097404329280974083292909740932934097414329330974133294209742200000000000329450974253294409742432947097427329480974283295409743400000000000329550974350000000000032963097445329640974463296909745132970097452329730974553261009645632975097457329760974583298109747132982097472329840974743262109647432987097477329860974763298909747932626096479)
 (.leaf 3299009748032627096480329940974843299309748333007097497330060974963302609751633027097517330310975213303209752233047097537334080985373305209754233413098542330530975433341309854233054097544334140985433305909754933058097548330650975553306609755633068097558327050965583307509756500000000000330760975660000000000033077097567334390985683307909756933439098568330810975713308009757033088097578330870975773309209758232730096583330970975873309809758833099097589330980975883310909759933110097600331130976033347409860333118097608331170976073312909761900000000000331350981123277109711133137098114331360981133314109811800000000000331510981283315009812733158098135327950971353317309815033535099150331790981563318009815733188098165331890981663319309817033555099170331970981743355909917433202098179335640991793320509818232842097182332070981843284409718433212098189332110981883321609819332853097193332200981973358209919733234098211000000000003323909834200000000000332430983463288409734533245098348328870973483325009835333608099352332520983553361009935433256098359328990973603326009837700000000000332660983890000000000033270098393336270993933327609840032919097399332860984100000000000033313098438333120984373331509844000000000000333220984473367909944733324098449329670974493333409845900000000000333380984673297809746833339098468329780974683334009846932978097468333430984723334409847333353098482333520984813335709848600000000000))
 (.node 1 (.leaf 3336109849033360098489333630984923336409849333370098499333690984983337809850733377098506333820985113338309851233397098526333980985273342209855133778099550334240985533342309855233435098564334360985653345509858433454098583334560985850000000000033457098586000000000003345909858833460098589334620985913346309859233465098594338210995933347109860033828099600334730986020000000000033483098612334820986113348509861433124097614334870986163312609761633488098617000000000003349509864300000000000334970991123313409811133502099117338561001173351409912900000000000335180991333351709913233521099136331590981363352309913833524099139335280991433352709914233530099145335290991443353209914733885100146335490991643355009916533553099168335540991693355609917133911100172335570991723391110017233561099176339161001773356609918133565099180335690991843392410018533578099193339321001933358009919533581099196335860992013322309820033589099204335900992053359309920833594099209335990993433359809934233600099344339541003433360409934833959100348336070993513396110035033615099359336160993603362009937733619099376336260993923362709939333634099400332750983993363709940333638099404336490994170000000000033655099423336540994223366409943233306098431336690994373366809943633673099441333170984423367609944433677099445336820994500000000000033685099453336860994543369009945833691099459336930994650000000000033698099470000000000003370209947434051100473)
 (.leaf 3370709947933706099478337150994873371409948633724099496333670984963372509949733367098496337310995033373009950233734099506333770985063374209951400000000000337450995173374609951833751099523337520995243376709953933768099540337820995543378309955533789099561337900995623379109956333792099564337950995670000000000033798099570334420985713380309957500000000000338040995760000000000033811099583341601005823382609959834175100597338300996040000000000033833099607341831006073383809961234187100611338460996403384509963933857100118338561001173385910012033860100121338631001240000000000033867100128000000000003386910013033515099130338901001513353609915133893100154335400991553389910016033900100161339201001813391910018033926100187342721011863393010019134276101190339411002023394210020333952100341000000000003396710035634315101357339681003573396910035833976100376000000000003398310039300000000000339871004000000000000033991100404339921004053399610041200000000000339991004153364709941534003100419340021004183400410042034005100421340081004243400710042334015100431336620994303401910043534018100434340251004413402410044034029100445343731014453403210044834376101448340381004543368709945534044100466000000000003405410047634053100475340681004903441110149034083100505340821005043408610050834087100509340891005113409010051234101100523341021005243411910054133769099541341201005423377009954234121100543337710995433412210054433772099544)))
 (.node 2 (.node 1 (.leaf 3412310054533773099545341461005680000000000034150100572341491005713416710058933817099589341721005943417310059534179100603000000000003418810061234526101611341911006150000000000034193100640341921006393420710112133860100121342111011253386410012534212101126338661001273422410113834563102139342351011493388810014934240101154338941001553424210115633896100157342471011613390110016234262101176339151001763426810118234605102181342711011853460910218534274101188346111021873427510118934276101190342851011993393910020034286101200339391002003428810120233942100203342971012110000000000034304101346339561003453431210135434311101353343131013553431410135634324101378000000000003432510137900000000000343291013940000000000034333101402346691024023434210141434341101413343441014163400010041634350101422343511014233435710142934013100429343681014403470510243934380101452343811014533438510145734386101458343931014723405010047234399101478343981014773440510148434061100483344141014933441310149234419101498344181014973442510150434424101503344271015060000000000034431101510344321015113447510155434131100553344841015633482010256434486101565341441005663449010156900000000000344951015743449410157334498101577344991015783450110158034837102581345061015853416310058534507101586348411025853451010158934845102589345121015913484810259234517101596000000000003452710161234526101611345311016390000000000034534101642348641026423453810211434866103113)
 (.leaf 3453910211534869103116345421021183454110211734545102121345461021223455310212934882103129345581021343422010113434571102147349011031483457710215334578102154345801021563458110215734593102169349231031703459710217334598102174346271022033429010120434631102207000000000003463810234334637102342346441023493430610134834647102352346461023513467210240500000000000346831024173468210241634687102421346881024223469010242434689102423346911024253469210242634698102432350241034313470110243534702102436347121024463471110244534715102449347161024503472010245434721102455347231024570000000000034725102469347241024683475210249635079103495347571025013475610250034759102503350861035023476510250934766102510347671025113443210151134769102513344341015133479010253434455101534347911025353445710153634792102536344571015363479310253734458101537347961025403479510253934802102546000000000003480810255234472101551348121025563447610155534818102562348171025613482610257034825102569348331025770000000000034838102582348371025813484410258834845102589348621026403486110263934870103117348691031163487210311935204104118348751031220000000000034877103124000000000003488010312700000000000348811031280000000000034883103130352161041303488510313234556102132348861031333455710213334888103135345591021353489010313734891103138348981031453456810214434910103157349111031583491910316634920103167349361031833526910418334945103192349441031913495710320434958103205))
 (.node 1 (.leaf 3496010320700000000000349671033433496610334234970103346349691033453497710335334976103352349801033563498110335735007103414000000000003501210341935011103418350141034210000000000035021103428350201034273502710343435356104433350331034403536310444035037103444350361034433503910344634711102445350431034503537310445035052103468000000000003505710347335056103472350601034763473210247635061103477347321024763506710348334738102482350691034853474110248535081103497354101044963512710354300000000000351281035443480010254435129103545348001025443513410355035133103549351361035523480710255135139103555000000000003514310355935144103560351481035643514910356535151103567348241025683515210356834824102568351531035693482410256835159103575351601035763516410358035165103581351671035833516810358435186103612355181046123518810361435519104613351891036153552110461535194103638000000000003520510411935204104118352121041263521110412535213104127000000000003521710413135546105130352231041373555410513835228104142348951031423523210414635233104147352341041483556410514835236104150349041031513524010415435241104155352491041633525010416435258104172349251031723526110417534929103176352631041773493010317735267104181352661041803527410418834940103187352781041923527710419135280104194349471031943528110419534947103194352851041993528410419835286104200352871042013531010435435309104353353121043563531310435735317104385000000000003532710440335326104402)
 (.leaf 3534310442000000000000353511044283535010442735355104432353541044313535910443635688105436353681044453536710444435371104448353701044473537710445435047103454353811044580000000000035392104478350621034783539310447935063103479353961044823506510348135400104486350701034863540310448935402104488354201045063541910450535423104509350921035083542910451535100103516354311045173510210351835432104518351031035193543310451935104103520354421045283511210352835443104529351131035293545110453735121103537354531045393512410354035466104552354651045513546910455535801105555354701045563547110455735473104559354741045603548010456635149103565354861045723515610357235489104575354901045763549110457735162103578354991045853583010558435503104589355041045903550810459435179103595355141046020000000000035522104616355211046153552910464035197103641355311051150000000000035537105121358751061203553910512335878106123355491051333554810513235558105142355571051413556010514435899106144355611051453589910614435567105151355681051523557810516235918106163355821051663592110616635584105168359231061683558610517035925106170355931051773593310617835605105189356041051883561610520035617105201356191052033562010520435631105346000000000003563610535135635105350356411053560000000000035643105373000000000003564410537400000000000356521053860000000000035653105387000000000003565610539000000000000356731054213602210642135674105422360231064223567610542435348104425))))
 (.node 4 (.node 2 (.node 1 (.leaf 3567910542735350104427356971054453569610544435705105453357061054543571210546000000000000357171054713571610547035722105476357211054753573410548835402104488357521055063575110550535756105510354241045103575910551335428104514357611055153543010451635770105524354381045243577710553135444104530357811055353578210553635784105538354521045383578910554335790105544358251055793582610558035834105588358351055893584510559900000000000358531056130000000000035856105616358551056153586610563935528104639358761061213622610712035879106124000000000003588110612636233107127358841061290000000000035890106135358891061343589210613735553105137359081061533590910615435922106167359231061683592710617235928106173359321061773628310717735934106179362851071793594010618536291107185359471061923594610619135950106195359491061943595210619735953106198359551062003595610620135960106205363121072063596810634400000000000359701063483631510734735973106351000000000003598510636700000000000359931063750000000000035998106380000000000003600810640500000000000360181064170000000000036024106423000000000003602710642636354107427360301064290000000000036039106438363631074383604110644036042106441360441064433604310644236063106462000000000003606410646300000000000360651064650000000000036068106468360671064673607510647536074106474360781064783640410747936083106483357281054823608410648435730105484360861064863573110548536087106487357331054873610210650235747105501)
 (.leaf 3610610650636105106505361091065093643410750936111106511361121065123612110652135767105521361221065223576810552236125106525357711055253612610652635772105526361321065323613310653336140106540357861055403614310654336144106544361461065463614710654736148106548357951055493615410655436153106553361561065560000000000036162106562361631065633616610656636491107566361741065743650010757536176106576361771065773617910657936180106580361811065813618010658036185106585361861065863618710658736512107587361891065893583510558936192106592358391055933619610659635843105597362011066010000000000036208106614365281076133621410663400000000000362161066363586410563736227107121362261071203624310713736242107136362461071403589510614036249107143362481071423625210714636253107147362561071503625710715136260107154365831081553626210715635911106156362871071813628610718036297107191366181081903630010719436621108193363041071983662710819936307107201366291082013632610736835987106369363271073693598710636936331107373359901063723633410737635995106377363391073810000000000036348107418000000000003635010742000000000000363591074343667710843436375107450363741074493637810745336054106453363851074603606010645936391107466360661064663639410746936712108469364131074883641410748936415107490360891064893641710749236416107491364191074943641810749336421107496360951064953642410749936098106498364261075013610110650136431107506364321075073643710751236112106512))
 (.node 1 (.leaf 3645510753036130106530364621075370000000000036463107538000000000003646510754036139106539364691075443614410654436481107556364801075553648410755936485107560364941075693616910656936497107572361721065723650210757736821108578365091075843682710858436523107598361981065983652510760000000000000365311076163684810861636541107638365421076393654410764100000000000365461081183622310711736549108121362261071203655110812336873109122365621081343624010713436566108138365651081373657710814936578108150365801081523690410915336588108160365891081613659410816636595108167365981081703692110917036603108175369271091763660910818136608108180366131081853661210818436616108188362941071883662210819436621108193366251081973694910919836630108202369541092033663210820436633108205366381083490000000000036650108368369821093693665510837336656108374366581083763633510737736683108440366841084413668510844237021109442366861084430000000000036688108445370241094453669710845436698108455366991084563638110745636700108457367011084583671110846836712108469367201084773640210747736727108484367281084853675410851137090109511367581085153644010751536760108517367611085183676410852136763108520367671085243644810752336770108527000000000003677610853336777108534367781085353677710853436781108538000000000003678510854200000000000367871085443678810854536791108548367921085493679410855136793108550367971085543679810855536802108559371391095603681610857337153109574)
 (.leaf 3681710857437154109575368381085953683710859436839108596371751095963684010859737176109597368551086290000000000036856108630000000000003686510863900000000000368751091240000000000036890109139368891091383689210914136891109140368951091443723011014536896109145372301101453689910914836900109149369091091583691010915936929109178372631101783693310918236932109181369371091863727011018536942109191369411091903694310919236619108191369471091963728211019736960109347000000000003696510935200000000000369661093530000000000036970109357000000000003697210935936641108359369741093613664310836136977109364369781093653698010936700000000000369831093703698210936936991109378369921093793699510938200000000000370321094533703110945237034109455366981084553703610945737037109458370421094633736911046337043109464373711104653704510946637371110465370501094713737811047237053109474373791104733705710947837384110478370601094813706110948237064109485367291084863706910949037068109489370741094953707510949637079109500374061105003708210950337409110503370831095043741011050437094109515374221105163709810951900000000000371011095220000000000037105109526000000000003710910953037108109529371101095313711110953237113109534000000000003711510953600000000000371171095380000000000037119109540000000000003712210954337123109544371321095533746011055437135109556367991085563713710955837138109559371401095613713910956037144109565371451095663715010957137477110571)))
 (.node 2 (.node 1 (.leaf 3716010958137159109580371651095863716610958737171109592371721095933717910961200000000000371821096153718310961637193109631375211106313719610963437195109633371971096353752511063537199109637000000000003720511012037204110119372091101240000000000037210110125372111101263721611013137542111131372171101323754311113237220110135372211101363722311013836889109138372271101423722611014137233110148000000000003723911015437240110155372581101733758411117337264110179375901111793726811018336934109183372861102013761211120137296110350372951103493730411035836971109358373101103643697810936537311110365000000000003731411036837315110369373191103733731811037237320110374376471113743732211037637323110377373271103810000000000037337110431000000000003733911043337012109433373441104383701810943937345110439373461104403735111044537352110446373541104483767111144837355110449376711114483735811045237030109451373641104583703710945837374110468376911114683737511046937691111468373901104843706310948437397110491373961104903739911049337071109492374031104973707710949837414110508374131105073741711051137418110512374241105180000000000037426110520000000000003742911052300000000000374301105240000000000037438110532374391105333744211053637443110537374441105383744311053737446110540000000000003744911054337767111544374521105463745311054737457110551377731115503746111055537462110556374681105623778511156237470110564374711105653747511056937476110570)
 (.leaf 3748011057437797111574374981105923749911059337508110615000000000003751411062400000000000375171106273751811062837526110636000000000003753411112337533111122375391111280000000000037540111129000000000003755311114237226110141375561111453755711114637565111154375661111553757011115937571111160375781111673757911116837580111169378901121693758211117137893112172375861111753789611217537591111180375901111793760211119137601111190376051111943791611219537607111196376081111973763511136237634111361376391113663764011136737644111371376451113723765311138000000000000376581114353765911143637679111456376781114553768211145900000000000376851114623768611146337688111465376891114663769811147537697111474377151114923802911249237717111494380311124943772011149737721111498377231115003772411150137732111509377311115083774011151737739111516377461115230000000000037749111526000000000003775611153337757111534377651115423776611154337775111552380891125523779011156738104112567378031115803780411158137809111586378101115873781411159138129112592378381116300000000000037846112125378451121243785511213438168113134378561121353816911313537861112140378601121393786811214738181113147378711121503818511315137873112152000000000003787511215437876112155378781121573819111315737881112160378821121613789411217337895112174379011121803790011217937904112183382171131833790711218637906112185379121121913791111219037918112197382321131983792111220037922112201))
 (.node 1 (.leaf 3792811234400000000000379291123450000000000037932112348376211113483793411235037623111350379391123553762811135537941112357379401123563794211235837632111359379431123593763211135937950112366376401113673795311236937954112370379621123783796111237737965112381000000000003797011243300000000000379741124373766011143737977112440379781124413799711246037684111461380011124643800211246538004112467376911114683800711247037694111471380121124753769711147438015112478380161124793801911248238018112481380221124853802111248438024112487383361134873802811249138340113491380371125003834911350038039112502377261115033805711252038056112519380661125293806511252838068112531000000000003807311253600000000000380771125403838911354038080112543380811125443808411254737770111547380881125513808911255238102112565381011125643810711257038108112571381091125723842011357138117112580384301135813812211258538123112586381271125903812811259138131112594384441135953815911312500000000000381761131423817511314138177113143384851141423818311314938184113150381881131543818911315538198113164385081141653820311316938204113170382101131763851911417638212113178385211141783822211318838531114188382261131923853511419238227113193385361141933824211334737931112347382591133643856911436438262113367385721143673826611337137956112372382731133783796111237738279113430000000000003828411343538283113434382871134383797511243838294113445382951134463829911345038621114450)
 (.leaf 3830011345138622114451383041134553862611445538306113457386281144573831111346238634114463383231134740000000000038326113477386471144763833111348238330113481383371134883833611348738346113497383451134963834811349938349113500383541135053835311350438363113514380501125133836811351938056112519383711135220000000000038374113525000000000003837711352800000000000383781135293806511252838383113534383821135333838511353600000000000383861135370000000000038394113545380821125453839811354938399113550384031135543840411355538410113561387321145613841711356838418113569384221135733842311357438427113578387491145783842811357938750114579384331135843875511458438436113587384371135883844911360038450113601384551136200000000000038458113623000000000003847111412838162113128384791141363816911313538489114146000000000003849311415038494114151384951141520000000000038497114154388131151553850311416038504114161385121141693882811517038514114171385151141723851611417338831115173385221141793883611517838523114180388371151793852811418538843115185385341141913884911519138538114195385391141963854111419800000000000385471143423854611434138552114347388641153463855511435038556114351385591143543887111535338565114360388781153603856711436238881115363385701143653888311536538581114376382711133763858311437838272113377385861143813858711438238588114383382781133833858911438400000000000385901143850000000000038591114386000000000003860011442900000000000)))))))
 (.node 32 (.node 16 (.node 8 (.node 4 (.node 2 (.node 1 (.leaf 3860311443238602114431386071144363860611443538613114442386141144433863011445938629114458386321144613895411546238637114466386381144673864311447238320113471386451144743864611447538648114477386471144763865111448038652114481386591144883897911548738660114489389811154893866411449338663114492386651144943898511549338666114495389861154943867011449938671114500386831145123868211451138685114514386841145133869411452300000000000386951145240000000000038697114526000000000003869911452800000000000387031145320000000000038713114542390331155413871811454738395113546387201145493872111455038723114552390451155533873011455939052115560387351145643841311356438756114585390761155843875911458838760114589387671145963844511359638771114600387721146013877611462000000000000387791146230000000000038784115126384681141253879111513338475114132387961151383879511513738799115141384831141403880011514200000000000388021151443911811614438807115149391231161493882711516939143116169388401151823915611618238853115195391691161953886511534738864115346388681153503886911535138872115354391861163543887411535638875115357388761153583919011635838885115367392001163683888711536938888115370388921153743857911437438897115379388961153783890611538838593114388389101154000000000000038916115406000000000003892111542900000000000389241154323892311543138927115435386061144353893111543938610114439389331154413893411544238943115451392621164523894611545439264116454)
 (.leaf 3895611546438957115465389631154713864211447138969115477392861164763897211548038973115481389901154983899111549939015115523390161155243901911552700000000000390211155290000000000039024115532000000000003902811553600000000000390291155373934711653739037115545390381155463904611555439045115553390531155613937211656239058115566393761165663905911556739377116567390611155693937911656939066115574393841165743906911557738748114577390721155803875211458139074115582390751155833907711558539076115584390791155873908011558839085115593387641145933909311560139094115602390961156200000000000039099115623000000000003910011612600000000000391031161290000000000039105116131000000000003910911613539108116134391111161373879511513739113116139387971151393912711615300000000000391301161563881411515639136116162394521171623913711616339138116164391411161673914211616839149116175391501161763917611634439175116343391821163503949911735139184116352391851163533919411636239511117363391991163673951611736839204116372388901153723921211638039211116379392171163853953311738539223116399000000000003922711640339547117404392281164043954711740439234116410000000000003923611641200000000000392431164333924411643439245116435392441164343924811643839580117438392501164403925111644139271116461392701164603927411646439275116465392781164683896011546839284116474396161174743928911647939621117479392901164803962211748039294116484396251174833930711649739308116498))
 (.node 1 (.leaf 3931311650339645117503393171165073964811750639324116514393231165133933011652039011115519393341165243933511652539338116528396701175283934211653239343116533393491165393934811653839353116543396851175433935811654839357116547393601165503969211755039370116560397031175613937811656839379116569393821165723971411757239383116573393841165743938611657639717117575393971165873972911758739401116591390841155923940211659239084115592394041165943940511659539409116599394101166003941811712700000000000394301171403943111714139442117152394431171533944711715739448117158394501171603945111716139471117181394721171823947611718639475117185394771171873980811818839483117193398131181933948511719539486117196394881173400000000000039495117347398241183463949811735039828118350395091173613983911836139514117366398451183673952311737539207116375395301173823952911738139532117384395331173853953511738739536117388395451174023987911840239548117405398821184053954911740639883118406395501174073988411840739559117416000000000003956011741700000000000395611174190000000000039562117420000000000003956711742500000000000395681174260000000000039570117428000000000003957311743139572117430396111174693961211747039628117486396271174853963611749439635117493396391174973930811649839642117500396431175013964711750539981118504396601175183932811651839664117522393321165223967311753100000000000396791175373934711653739683117541000000000003968411754200000000000)
 (.leaf 3969311755140028118551396981175563969911755739701117559397021175603970611756439705117563397081175663970911756739719117577400541185773972511758340060118583397301175884006511858839742117600397431176013974911812700000000000397521181300000000000039770118150394401171503977311815339443117153397801181603978111816139787118167401251191673979411817440131119173397981181784013611917839803118183401401191823980611818640143119185398091181894014711918939816118196398171181973982111834339820118342398231183453982411834639827118349398281183503983611835839837118359398381183604017611936039847118369395171173693986111838340198119382398671183893953811739039872118394395421173943988511840840224119408398861184094022511940939890118413402291194133989211841539558117415398981184213956311742139900118423395651174233990811843139572117430399141184373991311843639918118441395841174423991911844239585117443399241184473959011744839925118448395911174493992611844939927118450399371184603993611845939939118462396041174623995011847339949118472399541184774029311947739962118485396261174843996611848939965118488399701184934030911949339973118496399741184973997611849939977118500399791185024031811950239984118507403221195063998811851139987118510399921185154033111951540000118523399991185224000511852839670117528400071185304000811853140011118534396761175344001411853739678117536400171185404001811854140021118544403601195444002411854740364119548)))
 (.node 2 (.node 1 (.leaf 4003211855540031118554400331185564003411855740045118568403851195694007311859639738117596400741185973973911759740078118601397441176024008811912800000000000400951191374009411913640096119138404341201384009711913940435120139401001191423976111814140102119144397631181434010411914639766118146401061191484044412014840113119155404521201564011611915840115119157401211191634012211916440127119169404651201694013211917440470120174401371191790000000000040139119181000000000004014811919040479120190401501191924048112019240152119194401511191934017311935740504120356401821193664051512036740183119367401841193684019911938340198119382402021193864020311938740208119392398701183924020911939339871118393402261194104055712040940228119412402291194134023411941840233119417402421194264024311942740245119429402461194304024811943200000000000402511194354025211943640256119440405881204404025811944240259119443402651194493992711845040266119450399271184504026811945239929118452402781194624027711946140280119464406111204654028211946640611120465402851194694028411946840289119473402881194724029611948040295119479403031194873996411848740305119489403041194884031111949540641120495403131194974064312049740320119504406491205034032811951240657120511403341195184033311951740339119523406691205234034111952540342119526403491195334001011853340351119535406811205354035611954040018118541403701195544070112055540381119565407121205664039411957840395119579)
 (.leaf 4042512012800000000000404311201350000000000040436120140407621211404044712015140773121151404491201534045012015440458120162404591201634047312017740793121177404801201910000000000040488120340000000000004049712034940496120348405011203534050212035440503120355405041203564050612035840823121357405131203654051412036640517120369401861193704053012038240529120381405311203834019811938240534120386405351203874054312039540211119395405451203974021311939740554120406402211194054055812041040557120409405661204184023311941740572120424000000000004057512042740243119427405781204304089612143040585120437402531194374059212044440260119444405931204454026111944540595120447405941204464060312045500000000000406081204624092412146240631120485406301204844063912049340309119493406461205004096312150140655120509406541205084065812051240973121511406671205214066612052040670120524406691205234067512052940992121530406791205334068012053440684120538410001215384069212054640693120547406981205524069712055140706120560410231215614070712056140708120562407231205774103912157740740120594410561215944074312059740744120598407471206014041711960140749120603000000000004075212112900000000000407581211364107412213640767121145404411201454077012114800000000000407821211604109812216040783121161410991221614078412116240785121163407991211940000000000040801121196404851201964080512133900000000000408081213424112212234240811121345408101213444081812135240819121353))
 (.node 1 (.leaf 4082912136340828121362408361213704051812037040840121374405211203734084112137540523120375408431213774052412037640845121379405261203784085212138640853121387408551213894053712038940856121390405381203904085712139140539120391408581213924053912039140866121400405471203994086912140340550120402408731214074087412140840879121413405621204144088212141640881121415408861214204088712142140890121424408911214254090112143540584120436409061214404058812044040908121442405911204434092712146500000000000409311214690000000000040932121470000000000004093312147100000000000409371214754093812147640942121480409411214794095912149740958121496409671215054096612150440975121513412881225124097912151741293122517409801215184129412251840983121521412981225224101312155141327122551410211215594133512255941040121578413541225784104212158041043121581410511215894105212159041065121603000000000004106912213100000000000410821221444108112214341086122148410871221494108812215000000000000410971221594109812216041104122166414201231674110812219400000000000411181223380000000000041121122341414391233404112712234741446123347411281223484144812334941129122349414481233494113012235041448123349411321223524145112335241142122362411411223614114512236540832121366411461223664083212136641147122367408331213674114812236840835121369411491223694083512136941153122373408381213724115812237840844121378411621223824084712138141176122396411771223974117812239840864121398)
 (.leaf 4117912239940865121399411821224024086812140241195122415408801214144119812241841518123419411991224194151812341941202122422408881214224120612242600000000000412091224290000000000041213122433408981214324121512243540902121436412211224414122212244241227122447412281224484122912244940915121449412311224514091712145141235122455415541234554124112246541242122466412491224734125012247441253122477409401214784125912248341260122484412621224864158112348641263122487415811234864126712249141585123490412721224964159012349541275122499415941234994129112251541610123515412951225194161412351941301122525413001225244130312252741622123527413091225334131012253441312122536409981215364131512253941000121538413171225414100212154041330122554416491235544133612256041655123560413511225754103712157541362122586413611225854137012259441369122593413731225974106012159841377122601413781226024138512313100000000000413901231370000000000041391123138417081241384140012314741717124147414061231534109112215341409123156414101231574142212319541736124194414251231980000000000041434123335000000000004144412334541758124345414621233634146112336241471123372411521223724147612337741475123376414831233844179812438541484123385417981243854148512338641799124386414881233894180312439041490123391418041243914149212339341173122393415021234034118412240441510123411415111234124151412341541513123414415161234170000000000041522123423415211234224152512342600000000000))))
 (.node 4 (.node 2 (.node 1 (.leaf 4152812342900000000000415291234300000000000041540123441412221224424154212344341543123444415451234464185912444741564123469415651234704156712347241566123471415751234804125512247941587123492418991244924158812349341589123494415911234964159012349541600123505412811225054160312350841602123507416051235104128612251041606123511412861225104160812351341609123514416181235234192912452241623123528419351245284162412352941936124529416251235304193612452941631123536416301235354163712354241949124542416401235454164112354641644123549416451235504165012355541963124556416591235644197112456441660123565416611235664168112358641680123585416841235894168512359041690123595416891235944169312359841694123599417041241334170312413241712124142420201251424171312414342021125143417201241500000000000041722124152000000000004172512415500000000000417331241634204212516441739124197420471251974175112433841750124337417541243414175512434241768124355420721253554177112435842076125359417751243624177412436141783124370414701233714178812437541787124374417921243794179312438041808124395414941233954181012439741811124398418211244084182012440741827124414418261244134183212441941833124420418361244234183512442241840124427000000000004184212443000000000000418461244344153312343441864124452418651244534187312446641872124465418761244694187712447041881124474421831254744189012448342192125483418921244854158012348541907124500419061244994192112451441922124515)
 (.leaf 4192712452042230125521419321245254193112452441938124531422411255324194412453742246125537419501245434225212554341975124568416631235684197812457141979124572419851245784198612457941988124581419871245804199112458441992124585419961245894199712459042000124593419991245924200312459642305125596420081246010000000000042013125133423131261334202212514442320126143420241251464202512514742030125152423291261524203112515300000000000420341251564203512515742041125163420421251644204312516500000000000420461251964234312619542052125335420511253344205512533842054125337420581253414205912534242068125351417641243514207512535842076125359420821253654208112536442084125367420831253664209812538141795124382421021253854210312538642109125392421081253914211312539642114125397421401254234213912542242142125425424451264254214612543242145125431421511254374184812443642158125444418571244454216012544642161125447421681254544216912545542176125467421771254684218112547200000000000421901254814218912548042198125489424991264884219912549042501126490422031254944250512649442208125499422071254984221112550241909124502422151255064191212450542217125508419141245074221912551042521126510422221255134222312551442239125530425411265304224412553542545126534422471255384254912653842248125539425501265394225012554142552126541422541255454255612654542260125551422591255504226312555442264125555422791255704258212657142286125577422871255784229012558142291125582))
 (.node 1 (.leaf 4230312559442304125595423081255994261012659942323126146423221261454232412614742025125147423261261494202712514942328126151423291261524234112616442342126165423591263394235812633842362126342423631263434236612634642365126345423731263534267112735442377126357423781263584238112636142678127361423821263624267912736242383126363426801273634240712638742408126388424111263914270812739142413126393424121263924241612639642417126397424331264134213012541342437126417424361264164243912641942438126418424411264214213812542142449126432000000000004245112643442452126435424571264404215412544042459126442424601264434246212644542463126446424671264504246812645142485126474000000000004249512648442788127484425031264924279612749242504126493427981274944250712649642800127496425111265004251012649942515126504422121255034252512651442526126515425321265214282612752242540126529428341275304254212653142835127531425511265404284412754042564126553428571275534258112657042875127571425851265744228312557442586126575425871265764259112658042289125580425931265824229112558242598126587425971265864259912658842600126589426011265904260012658942605126594426061265954261312713400000000000426141271350000000000042624127148429181281494262612715042627127151426301271540000000000042635127159423371261604266212734542661127344426651273484295912834842674127357426751273584268512736842684127367426891273724239212637242691127374423941263744270212738542703127386)
 (.leaf 4271012739342709127392427131273964271412739742718127401424221264024271912740242423126403427241274074242612640642726127409424291264094272912741242432126412427321274154302712841642745127428000000000004274712743300000000000427551274414305012844242765127451424681264514277312745942774127460427801274764307612847642785127481430811284814278612748243082128482427911274874279012748642801127497430981284984280412750042803127499428111275074281012750642814127510428151275114282012751642821127517428401275364283912753542851127547425581265474285212754842560126549428701275664257612656542873127569428741275704288312757942590126579428951275914319012859042897127593428981275944290612813500000000000429141281454262012714442915128146432111291464292412815542923128154429251281564292612815742932128163429331281644293612819700000000000429381281990000000000042943128332426491273324294612833542945128334429501283394324712933942951128340432481293404295212834143249129341429541283434295312834242958128347432551293474296012834943257129349429621283514296312835242968128357429691283584297112836042677127360429771283664268312736642978128367426841273674298612837542693127376429881283774269412737742989128378426951273784299512838442996128385430021283914270812739143007128396430081283974301612840542722127405430251284144302612841543032128421433291294214303412842342740127423430371284264274212742543040128429000000000004304612843843045128437)))
 (.node 2 (.node 1 (.leaf 4304912844143050128442430561284484276212744843062128454430631284554306612845842771127457430771284770000000000043078128478433711294784308012848043373129480430861284864337912948643093128493430921284924310012850043099128499431061285064310512850543109128509431101285104311412851442818127514431341285344342712953443145128545428491275454315912855943452129559431671285674287112756743173128573434661295734317412857443467129574431761285764317712857743181128581431821285824318412858443185128585431861285864289012758643191128591431901285904319712859743198128598432031291364320212913543208129143000000000004322512916042930128161432271291624352013016343229129164000000000004324512933743535130338432461293384353513033843253129345435421303454325412934643543130346432591293514354913035243267129359429701283594327212936443271129363432731293654297512836443274129366429761283654327712936942981128370432931293854299612838543301129393433021293944330312939543304129396433091294014331012940243317129409430211284104332512941743326129418433341294264333312942543337129429000000000004333812943400000000000433421294384334112943743347129443433481294444334912944543053128445433501294464305412844643355129451430601284524335812945443359129455433671294630000000000043369129471430721284714337212947900000000000433811294880000000000043388129495433891294964339212949943667130498433971295044339612950343401129508434021295094340812951543115128515)
 (.leaf 4342912953643705130536434301295374370613053743444129551437191305504344612955343447129554434541295614373113056243456129563431631285634346112956843462129569434731295804375013058143476129583431831285834347912958643756130587434851295924376113059243487129594437641305954348912959643766130597434931296020000000000043496130136000000000004350413014743503130146435061301494321412914943508130151432161291514351413015700000000000435151301580000000000043518130161435191301624353313033643534130337435401303434381713134243546130349438241313494354813035143826131351435551303584326512935743565130368438431313684357013037343280129372435711303744357213037543577130380432881293804358113038443582130385435901303934359113039443596130399435971304004360213040543601130404436041304074360513040843607130410433181294104360913041243320129412436111304144332212941443613130416438921314174361913042243618130421436241304274362313042643627130430000000000004363513044143912131440436441304504392313145143646130452439241314524365013045643651130457436531304594336312945943658130469000000000004367013050143952131501436771305084367813050943687130518434111295184369113052243692130523436981305294342312953043710130541439931315424371513054643714130545437161305474399813154743724130555440051315544372613055744007131556437331305644345712956443735130566440171315664374413057543745130576437481305794403013157943754130585440361315854375813058943482129589))
 (.node 1 (.leaf 4378213114744062132146437861311514406713215143788131153435101301534379113115643790131155437951311604379613116143803131328000000000004380613133143528130331438091313344353113033443811131336438121313374381913134444101132344438301313554382913135443833131358435541303574383813136343559130362438461313714356813037143853131378441361323794385613138143578130381438601313854386113138643868131393438691313944387513140043876131401438801314054387913140443883131408436051304084388613141143608130411438951314204389613142143897131422438961314214390313142843902131427439081314360000000000043911131439436321304384391413144243913131441439161314444363813044443917131445436381304444391913144743642130448439321314604393313146143936131465000000000004393713146600000000000439401314690000000000043944131473000000000004395513150444239132503439571315064424113250543959131508442441325084396413151343681130512439791315284397813152743982131531439831315324399213154144277132541439961315454371413054543999131548440001315494400113155044286132550440131315624429813256244020131569440211315704403413158344319132583440411315904432513258944050131601000000000004406313214744341133147440691321534378913115444074132158443521331584407513215944353133159440901323334408913233244093132336438121313374409413233743812131337440961323394409713234044099132342440981323414410213234544383133344441041323474410313234644112132355441111323544412713237044126132369)
 (.leaf 4413313237644134132377441431323864414413238744146132389438641313894414713239043865131390441481323914386613139144154132397438721313974417113241443890131415441751324184417413241744179132422444601334214418413242743902131427441851324284390213142744188132431000000000004418913243600000000000442061324534392613145444209132456442101324574421413246144495133461442201324674393813146744223132470442221324694422713247400000000000442281324750000000000044229132476000000000004424013250444239132503442451325094424413250844250132514439651315144425413251843970131519442571325214397313152244263132527439771315264426413252843978131527442671325314426813253244270132534442711325354427613254044556133540442781325424427713254144294132558445731335574430013256444580133564443201325844460113358544327132591440421315914433013259400000000000443331326000000000000044336132603000000000004434313314944618134149443491331550000000000044355133161443561331624435813316400000000000443611331970000000000044362133198000000000004436613332700000000000443681333294408513232844371133332446521343314437413333544373133334443811333424438013334144386133347446691343484439013335144672134351443911333524467413435344393133354446741343534439513335644677134356443971333584411513235844399133360441171323604440313336444402133363444131333744469513437444422133383441401323834442513338644144132387444311333924443213339344437133398441551323984444113340244442133403)))))
 (.node 8 (.node 4 (.node 2 (.node 1 (.leaf 4444713340844446133407444491334104416713241044452133413447351344144445513341644738134417444681334294446913343044472133438444711334374447913344544478133444444821334484476613444944483133449447671344504448913345544490133456445061334724450513347144522133506448041345054452613351044246132510445271335114424713251144528133512442481325124453113351544251132515445381335224425813252244541133525442611325254454513352944828134529445491335334483213453344553133537448361345374456113354544280132544445621335464484513454644571133555445701335544457713356144860134561445841335684486813456944586133570448691345704460213358644601133585446171341480000000000044620134151449011351514462613415744627134158446301341614463113416244650134329446491343284465313433244652134331446601343394466113434044665134344443831333444466813434744669134348446751343544467413435344678134357449631353564468613436544971135364446871343664497213536544690134369446891343684469213437144979135372446941343734498013537344698134377449851353784470313438244989135382447091343884499513538844710134389449961353894473313441244734134413447521344310000000000044755134438000000000004475813444144475133441447651344484505213544944770134453450561354534477213445544773134456447771344604449413346044779134462447801344634478113446444780134463447841344674507013546744787134470450731354704479713449800000000000447981344990000000000044807134508445241335084482113452244820134521)
 (.leaf 4482313452444824134525448301345314483113453244837134538451231355384483813453945124135539448411345420000000000044843134544451281355434485413455544853134554448651345664515113556644872134573448731345744488013458144597133581448891345900000000000044891134592000000000004489313460000000000000449031351534490213515244904135154451881361544490713515700000000000449091351594519413616044926135203000000000004493313532600000000000449391353324522213633144944135337449451353384494913534244948135341449531353464523713634644957135350446721343514495813535144672134351449601353534495913535244965135358449641353574497613536944975135368449821353754526513637444984135377449851353784498713538045272136381449911353844527613638544993135386452771363864500313539644717134396450041353974471713439645006135399447211344004500713540044721134400450091354024501013540345016135409450151354084501913541244734134413450261354194474113442045027135420447411344204503113542444745134424450361354294503513542845042135439450411354384504613544344760134443450491354464533313644645051135448450521354494505813545545059135456450621354594506313546045067135464450661354634507413547145358136471450751354724535813647145078135475453631364764507913547645363136476450801354774508113547845088135503450891355044509213550745375136506451001355154481413451545104135519451051355204511113552645395136526451121355274539613652745125135540000000000004514313555845142135557))
 (.node 1 (.leaf 4514713556245429136562451491355644543113656445154135569454371365704516413557945445136578451701355854545113658445189136155454651371544519213615845193136159451991361830000000000045200136184000000000004520113618500000000000452081361990000000000045209136200000000000004521413620500000000000452191363284521813632745220136329454991373294522113633045500137330452231363324522213633145225136334452261363354524913635845528137358452621363714554113737145281136390455591373894528413639344999135392452951364044501113540445302136411453031364124531213642145313136422453141364234503013542345320136429450351354284532613643945605137438453291364424504513544245337136450456171374504534013645345341136454453511364644535013646345360136473453591364724536113647445641137474453691365004536813649945372136503456511375044538213651345098135513453831365144566013751345387136518456651375184540013653145679137532454101365430000000000045415136548451331355484542113655445693137554454231365564569513755645426136559456981375594543813657145711137572454401365734515813557345443136576000000000004544413657700000000000454471365804571713757945448136581457191375814545013658300000000000454601371490000000000045466137155454651371544546913715845734138158454741371634519613616245476137165000000000004548613720200000000000455061373364577013833545512137342455111373414551513734545781138346455251373554579013835545526137356457911383564552913735945528137358)
 (.leaf 4553313736345532137362455391373694580413836945540137370458041383694554613737645545137375455481373784554713737745561137391455601373904556513739545286136395455681373984556913739945579137409452991364084558313741345584137414455861374164530713641645588137418453091364184559713742745596137426456041374340000000000045606137439458701384384561613744945617137450456191374524562013745345631137464453501364634563313746645898138466456371374704535813647145645137478000000000004564713750000000000000456631375164592513851645669137522453911365224568013753300000000000456851375464594513854645694137555459541385554570613756745966138567457261381504572513814945737138161454721371614574113816500000000000457431381804547813718045745138182457441381814574813818545749138186457511382040000000000045753138206457521382054575513820800000000000457611383260000000000045762138327000000000004576413832946016139328457671383324602013933245768138333460211393334577713834245776138341457841383494551813734845786138351460391393514578713835246040139352457881383534604013935245789138354460411393534579413835946046139358457981383634579713836245800138365455341373644580113836645535137365458081383734580713837245814138379458151383804582113838645820138385458261383914607913939145837138402460901394024583913840445574137404458411384064557613740645845138410460991394114584613841146099139411458481384134558413741445867138432458661384314587413844245610137443)))
 (.node 2 (.node 1 (.leaf 4587913844745880138448458891384574562513745845893138461456291374624589513846345630137463459011384694563613746945903138471456381374714590413847245639137472459121385020000000000045915138506459141385054592313851445922138513459261385174617413951745933138524456711375244593513852645936138527459471385484619413954845951138552456911375524595713855845956138557459611385624620813956245984139153459851391544599313916245738138162459961391650000000000045997139166000000000004600013918145744138181460031391844600413918546024139336460251393374603013934245776138341460381393504603913935146050139362463031403614606713937946068139380460701393824607113938346075139387463291403874608113939346335140393460831393954633714039546086139398463411403994608813940046343140401460911394034609013940246096139408460971394094610113941346102139414461041394164610513941746111139423461101394224611613942846115139427461201394324611913943146122139434000000000004612413944000000000000461281394444587613844446152139468459001384684616213950500000000000461661395094591913851046168139511461691395124617913952245932138523461961395504619513954946198139552464461405524621113956546210139564462141395684646314056946217139571462181395724622013957900000000000462291401490000000000046231140151462321401524623414015446479141154462401401604623914015946241140161000000000004624714016700000000000462491401794624814017846251140181462521401824626014020900000000000)
 (.leaf 4627014032846512141327462711403294651314132846272140330465141413294627614033446275140333462801403384602613933846281140339460271393394628214034046028139340462831403414602913934146284140342460291393414628714034546033139345462891403474603513934746302140360460491393614630514036346304140362463081403664655114136646309140367465531413684631014036846554141369463131403714655614137146316140374465591413744632214038046068139380463361403944658014139546340140398463411403994634214040046343140401463451404034634414040246348140406465901414054635014040846351140409463571404154635814041646364140422461101394224637014042846613141428463751404334637614043446377140441000000000004638014044446381140445463851404494638614045046388140452461371394534639014045446138139454464041404684640514046946407140471464081404724641314050646412140505464151405084641614050946419140512466621415134642114051446422140515464281405214667014152146432140525461831395264643614052946678141529464411405470000000000046453140559462061395604645414056046207139561464621405684670214156946469140580462211395804647514115000000000000464781411534671414215246483141158467201421584648914116400000000000464921411670000000000046498141182464991411834650514121746264140216465081412200000000000046522141337465211413364653014134546531141346465421413574679114235646545141360467951423604655814137346808142373465601413754681014237546561141376468101423754656314137846564141379))
 (.node 1 (.leaf 4656714138246817142382465751413904657414138946577141392468271423924658714140246586141401465911414064659014140546594141409465951414104659714141246846142411466001414154635814041646602141417466031414184660614142146605141420466091414244685914242446616141431466151414304662014144200000000000466241414464638314044746627141449463861404504663214145446633141455466391414614639714046146645141467466461414684665314147500000000000466541415050000000000046658141509464171405104667314152446672141523466761415274692714252746680141547000000000004669014155746940142557466981415654694814256546701141568467021415694670514157700000000000467091415810000000000046719142157469651431574672314216146969143161467251421634697114316346729142167467301421684673514217600000000000467381421794649514117946750142216465031412154675114221747004143217467691423344676814233346771142336465211413364677514234047032143340467781423434703514334346786142351465361413514679914236446798142363468011423664705914336746815142380468161423814682214238746823142388468291423944708614339446832142397470891433974684014240546839142404468441424094684514241046850142415468511424164685414241946604141419468631424284686214242746870142435000000000004687214244346871142442468741424454662314144546877142448468781424494688114245247139143452468941424654664314146546899142470468981424694690114247246902142473469051425050000000000046908142508471651435094691014251047167143511)
 (.leaf 4691414251446915142515469251425254692414252446926142526471831435274692814252800000000000469431425604719714356046944142561471981435614694714256447202143565469501425674720414356746959142602000000000004696114315300000000000469621431540000000000046974143166469751431674698014317200000000000469871431794698614317847006143219000000000004700714322000000000000470081432210000000000047019143327000000000004702214333046764142329470231433314676514233047027143335472651443354703314334147271144341470341433424727214434247037143345470381433464704014334846783142348470421433504678514235047044143352467881423534704914335747048143356470511433594728914435947054143362470531433614705814336647059143367470651433734706414337247068143376470671433754707214338047311144381470831433914732114439147091143399473291443994709914340747098143406471021434104734114441147104143412471031434114710814341647346144416471161434244711514342347120143428471191434274712214343000000000000471251434334712414343247134143447468761424474713714345046879142450471461434594688814245947155143468468971424684715614346946898142469471601434730000000000047161143505000000000004716414350847401144509471691435134717014351447173143517471741435184718514354800000000000471931435564719414355747196143559471951435584722414416246970143162472251441634697114316347227144165472281441664723014416846976143168472311441694697714316947233144171469791431714724314418147244144182))))
 (.node 4 (.node 2 (.node 1 (.leaf 4726214433247486145332472631443334748614533247269144339472681443384728314435347284144354472881443584751314535947292144362472911443614729514436547519145365472991443694752214536847305144375473041443744730914437947310144380473171443874731814438847331144401473301444004733614440647335144405473391444094734014441047350144420473511444214735514442547354144424473671444370000000000047370144445475921454444737314444847374144449473791444544714114345447387144462471491434624738814446347150143463473911444664715314346647392144467471541434674740014450847621145508474151445234741414452247436144566472031435664743714456747438144568474401445704720614356947444144601474431446004744814515700000000000474521451614745114516047463145172474641451734746614517547237144175474701451794746914517847472145181474731451824748414533047483145329474971453434771914634247500145346474991453454750214534847725146348475161453624751514536147526145372473021443724753214537847755146378475411453874776514638847556145402475551454014756214540847563145409475821454284735714442747584145430000000000004758514543147808146431475871454334736414443447591145437000000000004759314544547816146444475961454484759714544947601145453473781444534760514545747383144458476061454584738314445847607145459473851444604760914546147386144461476121454644738914446447619145506000000000004762714551447626145513476301455174763114551847633145520478561465204763714552447860146524)
 (.leaf 4763814552500000000000476421455524786514655247644145554000000000004765214556247875146562476601455704765914556947663145573000000000004767214615900000000000476751461620000000000047677146164478971471644767914616647678146165476801461674768114616847683146170474611451704768914617647910147177476921461794769114617847711146334479291473344771414633747932147337477221463454772114634447726146349479431473484772714635047728146351477351463584773614635947739146362477381463614774314636647961147366477471463704774614636947753146376477521463754775814638147535145381477621463854776114638447780146403477791464024778314640647784146407478121464354758814543447815146438000000000004781714644500000000000478221464504759914545147827146455476041454564783414646248051147462478421465060000000000047858146522480721475234786314655048076147550478691465564786814655547870146557476461455564787714656447878146565478871465740000000000047888146575000000000004789214660247668145603478931466034766814560347903147170000000000004791514718200000000000479241473294792314732847930147335479291473344794114734647940147345479461473514794714735247951147356479521473574796714737247749146372479691473744818114837347974147379479751473804797714738248190148382479821473874798314738847986147391479871473924799414739947993147398479981474034799714740248001147406480021474074800514741047787146410480061474114778814641148022147427478041464274802314742847806146429))
 (.node 1 (.leaf 4802414742947806146429480331474380000000000048034147445000000000004803614744748252148447480371474484803814744948055147506000000000004805814750948059147510480681475194828314852048075147549482871485494809614757248095147571481031476014831414860148108148165000000000004810914816600000000000481151481754790814717548121148181481221481824812914818900000000000481301481900000000000048134148326000000000004813914833148138148330481471483394814614833848149148341479361473414815014834247936147341481511483434793714734248154148346000000000004816114835348160148352481641483564816514835748170148362483781493624817814837048177148369481961483884798414738948200148392479871473924820314839547990147395482101484024820914840148222148414480091474144822414841648225148417482381484304802514743048246148438000000000004826314845848047147458482641484594826514846048269148464000000000004827314851048274148511482911485564807914755548294148559484961495604829814856348299148564483021485674850314956748308148573485091495734831014857548311148576483221491784811814817848324149180483251491814833014918648331149187483431493274834214932648361149345000000000004836914935348160148352483751493594858115036048376149360483771493614839014937448389149373483911493754859615037548392149376485961503754839514937948188148380483971493814819014838248402149386486071503864840614939048198148390484181494024841714940148422149406484211494054842514940948217148409)
 (.leaf 4843914942348231148423484441494284844314942748452149436482431484354845514943900000000000484591494464845814944548463149450482561484514847614946300000000000484771495070000000000048486149516486891505174848914951948490149520484931495574869615055848513149577000000000004851414959900000000000485161496014871815060148520150175000000000004852415017948525150180485281501834832814918448529150184483281491844853215018748533150188485481503274874615132748552150331483461493304855415033348348149332485591503384855815033748560150339483541493384856415034348563150342485681503474856915034848577150356485781503574858415036348783151364485851503644878315136448589150368487861513674859715037648596150375485991503784879615137748602150381486031503824860815038748806151387486131503924881115139248623150402486221504014862715040648626150405486311504104842714941148634150413488331514144864015041948641150420486421504214864315042248649150428486481504274865315043248447149431486631504420000000000048666150447486651504464867015045148465149452486721504534846614945348675150456488751514574867715045800000000000486791504600000000000048680150508000000000004869115051948692150520487021505644850014956448703150565485011495654871215057448711150573487221511760000000000048723151177489181521774872715118148728151182487381511924893415219348745151326000000000004874915133048748151329487711513524857215035148772151353489621523534877615135748578150357)))
 (.node 2 (.node 1 (.leaf 4877915136048581150360487841513654897415236548792151373489811523724880715138848996152387488101513914881115139248819151400488181513994882615140748825151406488311514124902215241348836151417486381504174883715141848838151419488391514204864115042048841151422488421514234884515142648647150426488481514294884715142848856151437486571504364886215144300000000000488651514474886415144648872151454488731514554887615150800000000000488821515144868615051448883151515486881505164888415151648689150517488891515560000000000048890151557488911515584889515156248894151561489001515674908715256648908151575490951525744891915217800000000000489201521790000000000048927152186491141531854892915218848735151189489321521914912115319248941152332489401523314894215233349133153333489541523454876415134548960152351489591523504896715235848968152359489881523794898915238049002152393488121513934900415239549003152394490101524014900915240049011152402492011534014901615240749206153406490181524094901915241049021152412492121534124902515241648835151416490311524224903215242349038152429490371524284904715243849046152437490551524460000000000049059152450492501534504906215245349253153453490671525114887915151149068152512490691525134907515251949076152520490791525584908015255949081152560492721535614908515256449084152563490901525694909115257049099152578000000000004911015318100000000000491131531840000000000049118153189491191531904914115334148949152340)
 (.leaf 4915515335549156153356491671533674935015436749177153377491781533784918115338148991152382492071534074938915440649210153410492111534114923015343049229153429492341534344923315343349242153442490501524414924515344500000000000492461534460000000000049249153449494331544504925815351349441154513492651535200000000000049268153557494511545584928615357549285153574492881535774928915357849300154185000000000004930415418949119153190493061541914930715419249312154329493111543284931415433149496155330493161543334913215333249321154338491381533384932515434249142153342493321543494914815334849337154354495201553544934215435949343154360493571543744917415337449360154377493611543784937915439649378154395493851544024938415440149398154415495811554154939915441649582155416494011544184958415541849416154433494151544324942115443849237153437494231544404924015344049424154441492411534414942815444500000000000494311544480000000000049437154509000000000004944015451249620155512494431545154962415551649444154516494451545174945415456200000000000494551545630000000000049458154566492771535664946415457249463154571494781551874966115618849482155191494831551924949415532849493155327495011553354931815433549503155337493201543374950715534149323154340495101553444951115534549527155361493451543624952915536349347154364495371553714953615537049538155372493541543714953915537349355154372495401553744935615437349550155384493681543854955715539149374154391))
 (.node 1 (.leaf 4955815539249375154392495611553954956015539449574155408497541564084957615541049757156411495801554144976015641449586155420494031544204959215542649591155425495981554324941415443149603155437494191544364960815544200000000000496271555190000000000049634155564000000000004963715556749460154568496421555724964115557149645155575494671545754964815557800000000000496621561894983715718949665156192000000000004968015633449679156333496951563494969415634849699156353498821573544970215635649703156357497171563714971615637049724156378497251563794973115638549732156386497341563884955415538849745156399499271573994974715640149746156400497561564104993915741149759156413499411574134976715642149587155421497701564244977115642549772156426497711564254977715643149776156430497801564344960015543449786156440499691574414979015644400000000000497911564450000000000049796156510000000000004980315651749993157518498131565664981215656549820156573500061575734982215657549821156574498401571920000000000049844157214496661562144984615721600000000000498481572180000000000049849157219000000000004985915733149858157330498661573384986715733949878157350496971563514988315735549884157356498881573604988915736149891157363498901573624989515736749713156367499051573774990415737649908157380497271563814991115738350107158383499131573854973215638649920157392499191573914992315739549922157394499261573985012315839949931157403501271584034993215740450127158403)
 (.leaf 4993515740750131158407499371574095013315840949945157417501411584174994715741950143158419499511574234995215742449956157428497741564284996015743249959157431499651574374996415743649974157446000000000004998015745800000000000499821574604998115745949986157511000000000004998915751449990157515500021575695000315757050005157572502041585725002915821149841157211500411582230000000000050046158231000000000005005615833250255159331500581583345025715933350060158336498641573365006715834349871157343500701583464987515734750076158352498801573525008815836449892157364500891583654989315736550090158366498941573665009415837050093158369500961583725029615937250098158374502981593745010015837650099158375501031583794990715737950109158385503081593845011015838649914157386501131583894991715738950126158402503261594025012815840450127158403501351584115013615841250142158418503421594185015015842650149158425501701584464997515744750176158453000000000005018015845750181158458501851584620000000000050187158512501861585115018915851450190158515501981585660000000000050203158571502041585725020815857600000000000502201591890000000000050224159193000000000005022515920800000000000502301592135042816021250232159215502331592165023415921700000000000502371592205003815822050241159224000000000005024415922750245159228502471592300000000000050251159234000000000005026215933850063158339502631593395006315833950268159344500681583445027315934950471160350))))))
 (.node 16 (.node 8 (.node 4 (.node 2 (.node 1 (.leaf 5027415935050471160350502791593555028015935650285159361502841593605029115936750489160368503111593875050816038750320159396503191593955032415940050520160399503331594095033415941050344159420505411604205034615942250347159423503511594275035015942650361159437503601594365036215943850558160437503661594425016615844250367159443501671584435037115944750172158448503721594480000000000050373159449000000000005037515945150173158450503761594525017515845250379159455505761604555038115945750382159458503881595135038715951250398159568000000000005039915956900000000000504181601900000000000050422160194000000000005042416020800000000000504311602150000000000050433160218504321602175043716022250639161222504451602305044416022950447160232504481602335045116023600000000000504521602370000000000050455160334506571613345045716033650456160335504611603405026415934050464160343502661593425046816034750271159347504701603495067216134950482160361504811603605048516036450687161364504971603765030015937650500160379503041593805050216038150704161381505061603855070816138550511160390505101603895051516039450514160393505211604005072216139950527160406503291594055052916040850530160409505311604105033415941050548160427505471604265055316043250552160431505551604345035815943450557160436505561604355055916043850558160437505621604415036515944150566160445503681594445057516045450777161454505821604610000000000050583160512000000000005058716051650790161517)
 (.leaf 5058816051750589160518505971605715059816057250618161195000000000005063416121700000000000506381612215084416222250640161223508451622235064116122450846162224506421612255084716222550643161226508471622255064616122950444160229506501612335065116123450656161333000000000005065916133650864162335506601613375086616233750664161341504621603415066516134250463160342506791613565068016135750682161359508881623595068816136550894162365506901613675069116136850695161372509011623725069716137450902162373507061613835050416038350714161391505121603915072616140350523160402507281614055072716140450731161408505301604095073916141650740161417507501614275074916142650752161429505501604295075816143550556160435507621614395076316144050770161447507711614485077416145150775161452507811614585078216145950786161513507851615125078916151600000000000508111616120000000000050814162192000000000005083516221350631161214508361622145063216121550838162216506331612165084116221951040163220508421622205084316222150849162227510471632275087316234450874162345508751623465087616234750879162350510791633505089116236251091163362508981623695069216136950904162375511031633745090516237651105163376509061623775110716337850907162378511081633795090816237951109163380509181623895091716238850923162394509241623955093016240150724161401509311624025072516140250939162410509401624115095616242750955162426509591624305115916343050966162437511671634385097116244251171163442))
 (.node 1 (.leaf 5097216244351172163443509731624445117316344450975162446511761634475097816244951179163450509821624535098316245450989162460000000000005099216251550993162516509941625190000000000050996162521509971625225100016255850797161558510031625700000000000051008162609000000000005101516319400000000000510161631950000000000051020163199000000000005102416320451023163203510291632095083116220951035163215508371622155103916321951234164220510461632265124116422751048163228512421642285104916322951243164229510581632385086016223851059163239508601622385106416333551258164335510681633395106716333851073163344512671643445109016336151285164362510951633665128916436651096163367512901643675110016337150901162372511111633825111016338151113163384511141633855111616338750916162387511171633885091616238751125163396509251623965112916340050928162399511351634065113616340751140163411509401624115114716341850947162418511521634235095316242451160163431511591634305116216343350962162433511631634345116416343551169163440513641644415117016344151171163442511751634465137016444751195163519000000000005120316356000000000000512071636070000000000051208163608000000000005121116361151010162611512141641970000000000051221164207510271632075123016421651421165217512311642175123216421851236164222512371642235125416424051060163240512621643395145216533851264164341514541653405127616435351466165352512781643555108416335551280164357510871633585128616436351478165364)
 (.leaf 5129116436851482165368513051643825111016338151309164386511141633855131216438951313164390513221643995132116439851326164403515171654035132716440451517165403513321644095152316540951334164411511411634125133516441251336164413513371644145114416341551348164425511541634255135316443051158163429513601644370000000000051362164439513631644405136816444551558165444513731644505156516545151382164459000000000005138316451900000000000513851645215119816352251387164523000000000005140016461051399164609514141652105122416421051415165211514161652125141916521551420165216514241652205142516522151439165235514401652365144216523851635166238514441652405125516424151451165337516421663365145616534251455165341514571653435164916634351460165346516521663465148516537151677166371515041653905131416439151505165391513141643915150616539251315164392515071653935131716439451508165394515091653955151416540051513165399515221654085171416640851537165423513451644225153816542451347164424515441654305154316542951547165433515481654345155416544051747166441515571654435155816544451569165455517611664555157016545651762166456515711654575176416645851574165519000000000005157816552300000000000515811655590000000000051582165560000000000005158316556100000000000515901656110000000000051592165613000000000005161316621651614166217516291662325143616523251632166235516331662365165016634451835167345516601663545184316735351661166355518441673545166416635851665166359)))
 (.node 2 (.node 1 (.leaf 5166716636151852167362516701663645185416736451673166367518571673675167616637051860167370516801663745186316737351682166376518661673765168316637751866167376516861663805168516637951687166381514951653815169016638451875167385516921663865187516738551704166398515121653985170716640151890167400517121664065171116640551715166409518991674095171916641351528165414517361664305173516642951738166432519221674325174216643651925167435517511664455193516744551752166446519361674465175516644951938167448517571664515175816645251765166519000000000005177516656300000000000517821666095158716560851798167216517991672175180916722751623166226518101672285162516622851823167241520091682415182516724351640166243518321673425202316834151846167356520381683565184716735752039168357518591673695204516836951865167375520521683765187316738352058168382518781673885206416838851881167391518821673925188316739351884167394518861673965170216639651892167402520781684025189616740652082168406519001674105208616841051902167412520871684115190416741451720166414519141674245173116642551927167437519281674385192916743952116168440519301674405211716844151937167447521231684475194216745251943167453519471674575194816745851950167521000000000005195116752200000000000519541675600000000000051956167562517741665625196116759451962167595519741682065178816720651980168212517951672135198216821451796167214519861682185198716821951989168221519901682225200716823952006168238)
 (.leaf 5201816825000000000000520261683445221316934552029168347522151693475203116834952217169349520331683515221916935152037168355522231693555204716837152046168370520541683785205316837752059168383522421693825206216838652246169386520631683875224716938752065168389522501693905207116839552256169396520741683985225816939852094168418519081674185209716842151912167422521041684285210316842752113168437521141684385212116844552122168446521271684515212816845252130168454523141694545213316845700000000000521361685500000000000052138168560000000000005214416859100000000000521471685945214816859552159169206523471702065216916921652358170217521701692175217116921852173169220521741692215218316923051999168231521881692355218716923452190169237523771702365219416924152195169242521991692465201416824652207169254000000000005220916934100000000000522161693480000000000052226169358000000000005222716935900000000000522311693715223016937052234169374524121703745224116938152420170382522521693925225316939352273169413522721694125227616941652091168415522771694175209316841752279169419520951684195228516942552101168425522881694285210316842752295169435522941694345229716943752298169438523081694485230916944952321169553000000000005232416956000000000000523261695625250317056252327169563523281695645232916956552330169566523341695935233516959452337169596523381695975235217021152523171210523541702135252717121452356170215523571702165236017021952361170220))
 (.node 1 (.leaf 5237017022952181169228523751702345218616923352384170243521961692435238917024852201169248523941702535220616925352398170342000000000005239917034300000000000524021703460000000000052408170370000000000005241117037352575171373524131703750000000000052415170377000000000005241817038052579171379524211703835242017038252426170388525881713885242717038952590171390524331703955259617139652440170402526011714015245217041452613171413524621704245228416942452465170427522871694275246617042852467170429524681704305263017143052483170445526441714445248417044652645171445524871704495248817045052499170554523231695555250917058900000000000525111705915233216959152530171217525311712185253817122552365170224525451712325237217023152546171233523741702335255217123952718172239525531712405271917224052560171247523881702475256217124952390170249525651712525239317025252568171255523961702555257217134500000000000525771713770000000000052578171378000000000005258717138752588171388525931713935275417239452599171399527581723985260917140952608171408526181714185277717241752621171421524581704205262617142652464170426526351714355279517243552637171437524751704375264617144652806172446526491714495280917244952653171453528141724545265917155200000000000526671715645282517256452676171592528361725935267917159500000000000526801715960000000000052684172205000000000005268817220952523171210526911722125285117321352692172213525271712145269617221752531171218)
 (.leaf 5269817221952699172220527071722285286517322752708172229528671732295271617223752876173238527171722385287617323852724172245525581712455273117225252730172251527451723855274417238452759172399527581723985276117240152920173401527631724035292117340252779172419527781724185278917242952629171429527981724385279917243952815172552000000000005281917255652663171556528201725570000000000052832172589528311725885283517259252992173592528431732050000000000052853173215526941722155285517321752856173218528631732255270317222452868173230530231742295287017323252711172232528791732415272017224152880173242527211722425288417324652883173245528861732485288717324952890173252528891732515289217325452893173255528951732570000000000052900173381528991733805290517338652904173385529071733885290817338952913173394530691743955292517340652926173407529301734115292917341052935173416527751724155293917342052938173419529451734265294417342552956173437531111744375297317355400000000000529741735555313117455552986173586000000000005298917358952831172588529981742040000000000052999174205000000000005300017420652845173207530051742115316817521253021174227531831752275302417423053023174229530281742345302917423553040174246530391742455304517425152889173251530521742580000000000053053174379000000000005306817439453232175395530741744005323717540053077174403529211734025308417441053083174409530911744175309017441653094174420529381734195310017442653099174425))))
 (.node 4 (.node 2 (.node 1 (.leaf 5310217442853265175428531081744345295317343453109174435529531734345311317443953276175439531161744425327917544253122174448532861754495312617445200000000000531341745585313517455953138174563000000000005314017456553300175565531481745885314717458753151174591531521745925316417520853003174209531661752105333017621053171175215531721752165317717522153178175222531871752315318617523053190175234533551762355319617524053034174240531981752425319917524353202175246530391742455321017525453049174255532131752575321417525853221175384532201753835322317538653388176386532351753985339917639753246175409530821744085325317541653252175415532741754375343917643753283175446534481764465328417544753449176447532941755595313617456053302175567531421745675330917558853308175587533111755905331217559153325176205533241762045332917620953498177210533321762125333317621353335176215535031772155333817621853175175219533401762205334117622153343176223535111772235334817622853183175227533501762305334917622953362176242531991752435336417624453200175244533681762485353617724853369176249535381772505337017625053371176251533721762525354017725253375176255535441772565337817625853214175258533841763825338317638153389176387535571773875339517639353563177393533961763945356417739453410176408534091764075341717641553416176414534191764175358617741653422176420534211764195342717642553426176424534301764285342917642753432176430532671754305343417643253269175432)
 (.leaf 5345717656053295175560534671765800000000000053474176587534731765865347717659053312175591534801765935348117659453483176596000000000005348917720100000000000534901772020000000000053495177207536761782085349617720853497177209535131772255369317822553515177227533471762275352117723353522177234535241772365370417823653526177238537051782375352717723953706178238535331772455371417824653534177246537141782465353517724753715178247535431772555372417825653549177379535481773785357417740453573177403535921774225359117742153593177423534261764245360117743153433176431536041774345343617643453606177436536071774375362317755853622177557536261775615345917656253633177568000000000005363517757800000000000536401775835363917758253647177590538251785905365017759353828178593536561776020000000000053671178203534911772035367417820653856179207536791782115368017821253688178220536891782215369117822353692178224536951782275387617922753699178231538801792315370017823253882179233537081782405388817923953711178243538921792435371817825053899179250537271782590000000000053731178381539151793815373317838353916179382537341783845391817938453737178387537361783865374017839053925179391537411783915392617939253752178402537511784015375517840553575177405537661784165358617741653768178418537671784175377717842753597177427537791784295396317942953784178434537851784355380417856253805178563538171785825381817858353821178586538201785855382317858853824178589))
 (.node 1 (.leaf 5382617859154006179592538301785950000000000053831178596000000000005383817860500000000000538481791990000000000053851179202538501792015385417920554036180206538631792145386417921553869179220538701792215387817922954059180229538791792305406018023053893179244540741802445389817924954079180249539041792555408518025553905179256540871802575391417938053913179379539231793895392417939053934179400539331793995393817940453937179403539471794135376217841253949179415537651784155395517942153954179420539561794225395717942353966179432537821784325398417956153985179562539901795670000000000053993179579539921795785400217958854184180588540141796030000000000054032180202538501792015403518020554212181206540521802225387217922354053180223540541802245406518023554242181236540691802395424518123954071180241542471812415408918025900000000000540901802600000000000054103180387542831813875410618039054107180391541291804135412818041254132180416539501794165414518042954144180428541571804415415818044254163180559000000000005418118058554180180584541831805875418418058854190180594000000000005420418119800000000000542071812015439618220054210181204542111812055422418121854415182219542261812205441618222054230181224542311812255423318122754234181228542361812305406018023054246181240544361822405426818126200000000000542701812640000000000054271181265000000000005427218126600000000000542731813770000000000054279181383540991803835431318141754312181416)
 (.leaf 5431718142154318181422543241814285432318142754328181432000000000005433018143454331181435543341814385433518143954337181441543381814425434318156154344181562543481815660000000000054353181579543521815785435718158354179180583543641815905455518258954370181599000000000005438118162300000000000543851816270000000000054398182202543991822035440218220654403182207544091822135460318321354410182214546041832145441718222154611183221544211822255442218222654427182231542381812325442918223354430182234544351822395463018324054439182243546341832445446418226800000000000544731823845428018138454474182385542801813845447718238854476182387544861823975467918339654505182416545041824155450718241854314181418545171824285451618242754519182430547121834295452118243254715183432545231824345471818343554527182438545281824395453218244300000000000545371825625453818256354545182579000000000005454718258154742183580545511825855474818358654553182587547491835875455418258854750183588545561825905455518258954564182601000000000005457618262554776183625545911832015479518420054597183207548031842085460218321254603183213546061832165460718321754621183231546221832325463918324954844184249546561832665465518326554663183380546621833795467218338954479182390546731833905467418339154696183413545021824135469918341654504182415547021834195490918442054705183422545111824225471918343654926184437547201834375472118343854725183442000000000005473718356900000000000)))
 (.node 2 (.node 1 (.leaf 5474618358454949184584547471835855495018458554754183592000000000005475818360054757183599547751836245477418362354777183626549721846265478418363400000000000547871836370000000000054793184198000000000005479618420154795184200548011842065500018520654835184240550351852415485818426354653183263548651842700000000000054867184273000000000005487218438354871184382548761843875467018338754889184400546831834005489118440254684183401548931844045468618340354894184405546881834055489718440854690183407549031844145490218441354907184418549061844175491318442454708183425549181844295491718442854931184442000000000005493618456454937184565549391845675494018456854942184570000000000005494518458000000000000549481845835515518558254955184590551621855895495918459800000000000549631846025496418460354973184627000000000005497618463300000000000549821846390000000000054983184640000000000005499618520254997185203549981852045520818620555002185208552111862085500618521255216186213550081852145500918521555011185217550121852185502118522754822184227550261852325523518623255028185234548301842355504218524855043185249550441852505504518525155048185254548491842545506218526854864184269550681852740000000000055071185277000000000005507518537900000000000550801853845528818638355081185385552901863855508618539055087185391550961854005509518539955103185407548951844065511218541655111185415551241854285512318542755127185431549211844325513018543454923184434)
 (.leaf 5513418543855135185439551421855655514318556655153185580000000000005515418558155359186581551651855920000000000055171185602551701856015517918562500000000000551841856320000000000055203186200000000000005520918620655426187206552131862105543118721155232186229552331862305523918623655240186237552511862485525218624955256186253550461852525526418626155055185261552811862785507218527855283186280000000000005529118638655290186385552931863885551118738755315186410551071854115532118641655320186415553251864205511618542055327186422555461874225532818642355547187423553301864255512118542555337186432000000000005533918643455558187434553411864365534218643755347186563000000000005535518657100000000000553701865920000000000055373186599555791875995537818660400000000000553951866300000000000055396186631000000000005540518664055607187640554191871995520218619955422187202552061862035546518724555464187244554661872465524918624655470187250554711872515547518725555259186256554771872575526018625755478187258552611862585547918725955262186259554931872735549218727255501187281552841862815551318738955715188389555321874085553118740755535187411553161864115554418742055747188421555511874275575418842855552187428555531874295556118743755562187438555661875665535018656655567187567553511865675558318760355584187604555931876260000000000055595187628000000000005559918763255397186632556021876355560118763455620188197000000000005562318820055622188199))
 (.node 1 (.leaf 5562618820355818189203556321882095582518921055638188215556391882165565018822755447187227556611882385566218823955685188262554821872625568718826455483187263556881882655548518726555691188268554881872685570218827955499187279557051882825570618828355708188382000000000005571418838855713188387557391884135573818841255755188429555531874295575818843255556187432557621884365576318843755771188568555691875695577218856955773188570557851886290000000000055793188637557941886385581418919956000190198558231892085582418920955840189225556481882255584518923055654188231558651892505586618925155870189255558691892545587218925755679188256558861892715569518827255890189275556981882755590118938300000000000559031893855609219038455909189391557171883915591018939255718188392559141893965572218839655916189398557241883985591718939955725188399559301894125573818841255935189417559341894165594318942555942189424559511894330000000000055952189434000000000005595618943800000000000559641895710000000000055972189632000000000005597318963300000000000559741896345616119063455975189635561621906355597618963656163190636559821896425579818864256011190209560121902105602219022055836189221560251902235583818922356029190227558431892285603119022956032190230560391902375585318923856045190243558591892445605219025056053190251560541902525586618925156058190256558711892565605919025755871189256560621902605587618926156068190266558811892665607219027055885189270)
 (.leaf 5608019027855892189277560821902805608319028156093190385560921903845611319040556112190404561161904085592618940856122190414561211904135613019042256129190421561341904265613519042756136190428561351904275613919043156324191430561411904330000000000056152190570561531905715615419059800000000000561661906395616519063856168190641561671906405617319064656172190645561751906485598718964756187191199561861911985618919120156190191202561931912055638619220656206191218560211902195621619122856217191229562221912345622119123356230191242560441902425623519124756049190247562551912675606919026756264191276562631912755626919128156084190282562721912845608719028556276191288562771912895628319138956282191388562971914035629619140256300191406561141904065630419141056305191411563141914205612719041956323191429565161924305632619143256518192432563311914370000000000056334191569000000000005633719157200000000000563511916425654219264256360191651563591916505636219165300000000000563721916630000000000056378192198000000000005638419220456191191203563901922105619819121056394192214563951922155639619221656205191217563991922195640019222056406192226565931932275641819223856226191238564381922585624619125856440192260562481912605644819226856256191268564501922705645119227156456192276564551922755645919227956646193280564681922885646919228956478192392562861913925648319239756291191397565011924155630819141456503192417563101914165651219242656511192425)))))
 (.node 8 (.node 4 (.node 2 (.node 1 (.leaf 5651519242956701193430565281925730000000000056531192576000000000005653619263600000000000565391926395673419363956541192641567351936405654519264556741193646565461926465674219364756549192649567441936495655919266100000000000565651931990000000000056567193201565661932005657219320656760194206565791932135639319221356598193232564131922335661119324556425192245566121932465642619224656617193251564311922515663519326956636193270566431932775683119427756647193281566481932825665219328656465192285566561933850000000000056660193389566591933885666119339056476192390566661933955648119239556683193412564991924135668919341856690193419566921934215669119342056697193426568851944255670719343656708193437567091934380000000000056715193574565291925745672219358100000000000567431936485674419364956745193650569351946505674719365256748193653567501936550000000000056756194202567551942015675919420556760194206567651942115657719321156768194214567691942155677619422256968195223567781942245659119322556782194228565941932285679119423756603193237567941942405660619324056814194260568151942615681919426556818194264568371942835683819428456841194287570321952875685119439156662193391568521943925685319439356876194416568751944155688219442257074195423568881944285688919442956896194436567081934375690619457757094195577569071945785709519557856911194582569121945835692519464057117195640569301946455712319564656939194654000000000005694719520256946195201)
 (.leaf 5695819521356959195214569661952215696719522256975195230567841942305697819523356787194233569801952355678919423556981195236567901942365699219524756801194247569931952485699419524957000195255570011952565701819527356827194273570201952755701919527457022195277568311942775702919528457223196283570351952900000000000057040195389568491943895704819539756857194397570591954085686819440857069195418572621964175709719558057284196580571011955845710219558557115195638573231966385712119564457122195645571241956470000000000057126195649000000000005712919565257334196652571321956550000000000057149196209571501962105715619621656962195217571611962215696719522257163196223571641962245717119623156976195231571791962395698419523957182196242569871952425718519624556990195245571901962505699519525057191196251569951952505719219625257193196253572001962605700519526057205196265570101952655721719627757021195276572201962805743019728157221196281574301972815722419628457433197284572271962875722819628857234196389572331963885724119639657047195396572541964095706119541057259196414570641954135727119642657479197426572771964325727819643357281196436570881954375732219663700000000000573251966400000000000057326196641575191976405733819665600000000000573611972125736019721157366197217571581962185737819722957168196228573831972345717419623457395197246573941972455739719724857587198247574061972575719719625757408197259574091972605741519726657207196267))
 (.node 1 (.leaf 5741919727057210196270574341972855762519828557437197288574381972895744219738957441197388574441973915763519839157446197393572381963935745119739857243196398574571974045724919640457459197406572511964065746419741157256196411574691974165726219641757472197419576621984185747719742457269196424574811974285727319642857542198202000000000005754419820457353197204575521982125772319921157561198221575621982225756419822457565198225575661982265756719822757581198241573901972415758319824357582198242576041982645760319826357614198274576151982755762019828057429197280576411983975764019839657651198407574601974075765819841457829199414576641984205747319742057668198424578391994245767419843057675198431576801984365749019743757695198642000000000005769719864400000000000577011986545770019865357715199203000000000005771819920657546198206577191992075772019920857721199209577221992105772619921457554198214577281992165772919921757744199232575721982325774919923757577198237577571992455758519824557758199246575861982465776319925157592198252577641992525759319825357770199258577711992595777219926057771199259577801992685760819826857781199269577821992705778519927357786199274577941992825795820028357798199286579612002865780019928800000000000578091993945763819839457814199399576431983995782319940857824199409578281994135782919941457834199419578331994185783819942358001200424578421994275784319942857847199432576771984335784919943457678198434)
 (.leaf 5786119960900000000000578661996575770419865757878200203000000000005788520021057722199210578872002125788620021157893200218578942002195790120022657739199227579032002285774019922857906200231577431992315790820023357745199233579102002355791120023657913200238577501992385791920024457918200243579252002505792420024957933200258579342002595794920027457950200275579682003915780619939157972200395579712003945797520039857812199397579772004005781519940057978200401578161994015797920040257817199402579832004065798220040557990200413578291994145799820042158156201422580032004265800220042558007200430580062004295801320043657852199437580152004385801620043958024200608000000000005802720065500000000000580282006560000000000058039201205580382012045805020121657892200217580532012195789520022058054201220580552012215805820122457900200225580642012305806320122958081201247580822012485809120125758092201258580982012645793920026458100201266579412002665810420127057945200270581122012785795320027858114201280581152012815812020128600000000000581232013895796520038858124201390579662003895813120139757974200397581392014055798220040558143201409579862004095814420141057987200410581532014195830820241958155201421583102024215816820143458169201435581952022055819420220458197202207583502032085819920220958043201209582042022145820320221358207202217582082022185821120222158212202222582202022305821920222958222202232583742032325822520223558226202236)))
 (.node 2 (.node 1 (.leaf 5823020224058229202239582312022415807520124158235202245582342022445824020225058241202251582452022555808920125558247202257580922012585825320226358252202262582582022685825920226958265202275581092012755826720227758110201276582742022840000000000058277202388582762023875829620240758446203406583022024135814820141458309202420584592034195831120242258310202421583162024275816120142758319202430584702034305832020243158471203431583212024325847220343258329202440000000000005834720320500000000000583482032065850620420558358203216583592032175836320322158364203222583692032275821720222758381203239582292022395839320325158242202252584072032655840620326458410203268584112032695842120327958422203280584252032835858520428458428203388584272033875843020339058278202389584322033925828120239258433203393582822023935843620339658284202395584382033985828820239958440203400584412034015844320340358444203404584482034085860820440858451203411583002024115845520341558456203416584582034185845720341758461203421584602034205849020362500000000000584922036270000000000058526204225583672032255853420423358533204232585352042345869520523358538204237583792032375853920423858380203238585602042595840120325958561204260584022032605856720426658727205265585772042765857820427758579204278585802042795858420428358745205283585942043945859520439558610204410587712054095861520441558778205416586232044235878620542458625204425586242044245863020443058470203430)
 (.leaf 5863120443158472203432586572046290000000000058665204645586642046445866820520600000000000586702052085882920620758679205217585192042185869720523558857206235586992052375885820623658702205240585422042415870620524458545204244587122052505855220425158717205255585562042555872820526658727205265587312052695857020426958734205272587352052735873720527558736205274587512053895875020538858760205398585992043995876620540458926206405587692054075892720640658772205410589302064095877520541358934206413587802054185861820441858782205420586192044195878920542758790205428587972054355863520443558800205438588012054395880720545900000000000588082056200000000000058810205622586502046225881120562358651204623588122056245865220462458813205625586522046245881420562658653204625588162056285865620462858818205630586582046305882220564300000000000588382062165867720521558842206220586832052215884520622358846206224588642062425870420524258869206247587092052475887320625158713205251588742062525871520525358881206259588802062585888420626258724205262588882062665888720626558902206280589032062815890620638500000000000589092063885890820638758912206391590742073905891320639259076207392589142063935907720739358915206394587572053955891820639759081207397589212064005892220640158935206414590982074145894720642658948206427589562064355895720643658960206439589612064405896620645858965206457589812066310000000000058982206632000000000005898620664558985206644))
 (.node 1 (.leaf 5899320720858992207207589952072105899620721159001207216588372062155900520722059004207219590092072245901020722559011207226588482062265902620724158863206241590282072435886520624359029207244588672062455903920725458876206254590422072575888020625859045207260590442072595905320726859054207269590612072765923420827759066207281590672072825907120738758907206386590832073995925620840059085207401590862074025909120740759263208407590942074105909320740959095207411592672084115910220741859274208418591052074215927620842059108207424589452064245911120742759112207428591252074410000000000059127207456000000000005913120746000000000000591342076140000000000059136207619000000000005914220762559317208625591452076285914620762959165208208593392092085916620820959340209209591702082135899920721459172208215590002072155917920822259180208223591832082265901220722759188208231590152072305920420824759032207247592072082505903420724959220208263590482072635922120826459048207263592242082675922320826659226208269590552072705923320827659234208277592352082785906320727859242208386592412083855924720839159246208390592502083945942320939459255208399594282093995926120840559434209405592652084095909320740959271208415592702084145927320841759446209417592802084245945320942459285208429591132074295928720843159116207432592942084385929520843959298208455000000000005930220845959303208460593232086310000000000059329208645593282086445934720921659173208216)
 (.leaf 5935020921959520210219593572092265918420822759359209228591862082295936620923559192208235593692092385936820923759371209240593702092395937520924459545210244593772092465954621024559379209248593782092475938220925159383209252593852092545938620925559396209265592222082655940020926959401209270594042092735940320927259408209277592342082775941220928100000000000594132093840000000000059418209389594192093905942420939559595210395594262093975959721039759432209403594332094045943820940959437209408594552094265945420942559468209439594692094405947320945659472209455594772094600000000000059481209612594822096135948420961559309208615594852096160000000000059489209620594882096195950320964559502209644595052096475933120864759512210211596872112105951421021359690211213595182102175969321121659522210221596982112215952321022259524210223595302102295936020922959537210236593672092365954221024159541210240595512102505955221025159559210258593892092585956121026059392209261595642102635956321026259568210267597442112675957121027059747211270595832102820000000000059589210389597682113905959121039159768211390596002104005960121040159604210404596052104055960721040759785211407596152104155979321141559622210422598012114235962721042759805211427596282104285980521142759631210431000000000005963321043359462209433596362104365981521143759642210453000000000005964621045759825211456596472104585964821045959652210610000000000005966021061800000000000))))
 (.node 4 (.node 2 (.node 1 (.leaf 5966521062359492209623596662106245949320962459674210632000000000005967721064559676210644596802106485950620964859696211219596972112205970121122459525210224597042112275970521122859711211234595342102335971221123559535210234597142112375953821023759716211239595402102395971921124259720211243597302112535973121125459735211258595582102575975021127359574210273597522112755975321127659763211385595852103855976621138859951212388597692113915995421239159774211396599592123965977821140059779211401597832114055996821240559787211409596092104095981221143459997212434598162114386000221243959818211440000000000005981921145000000000000598282114590000000000059833211609000000000005983721161359655210613598492116255966721062559850211626596682106265985121162759669210627598522116285967021062859853211629596722106305985421163059672210630598562116325985721163359859211642000000000005986321164659862211645598742122120000000000059876212214600712132145987821221660072213215598822122205988321222159890212228597062112295989121222959706211229599032122415990421224259908212246601032132465991021224859909212247599122122506010721325059913212251601082132515991821225659733211256599202122585973421125759924212262599252122635992621226460121213264599272122655992821226659934212272597492112725994421228200000000000599502123875994921238659955212392601472133915995621239360149213393599572123946015021339459963212400599642124015997121240860163213407)
 (.leaf 5997521241259790211412599772124145979221141459985212422598002114225999521243260189213433599982124356019221343660011212455598242114556001221245659824211455600152124590000000000060022212610600212126096002621261459838211614600312126195984321161960035212623602292136236007521321860074213217600822132255988721222560083213226598882122266008421322759888212226600862132295989221223060097213240600982132416011721326060308214260601182132616030921426160138213281000000000006015621340060157213401601642134086035521440860166213410603572144106017521341959983212420601792134235998721242460193213437603842144376019521343900000000000601972134496019621344860207213459000000000006021421360860213213607602162136106002121260960218213612604072146126022121361560027212615602272136216003321262160237213631600442126326023821363260044212632602392136336004621263460240213634600462126346024221363600000000000602432136370000000000060249213645602482136446025321364960057212648602692142216027021422260278214230600872132306027921423160087213230602832142356009221323560286214238602852142376029921425160298214250603012142536011121325460306214258604942152596030721425960494215259603102142626049721526260313214265604992152646031921427160318214270603212142736013121327460328214280603292142816034421439760531215397603492144026035021440360356214409605432154096035921441260546215412603692144226037021442360380214433605672154336038221443500000000000))
 (.node 1 (.leaf 6038721444800000000000603942144556020321345560396214457603972144586040421460960403214608604112146166059521561660413214618602232136176041921462460420214625604242146296042321462860439214645602482136446044321464960442214648604522152170000000000060453215218000000000006046221522760653216228604642152296065521623060467215232602802142326047321523860285214237604762152416029021424260477215242602902142426047821524360291214243604852152506048421524960490215255606812162566049121525660682216257604932152586049421525960501215266603142142666050221526760315214267605032152686031621426860509215274603222142746051221527760513215278605152152806051621528160517215383000000000006052421539060525215391605282153946052721539360530215396605312153976053821540460539215405605552154216055421542060558215424605592154256056621543260567215433605722154496057121544860574215451603912144526058321560400000000000606002156216041621462160603215624606042156256060621562760605215626606132156346061421563560619215640000000000006062221564360621215642606272156486044121464760631215652000000000006064321621800000000000606442162190000000000060658216233604682152336066021623560471215236606622162376047221523760665216240606662162416067721625260676216251606802162556086721725660699216274607002162756070321627860890217279607062163830000000000060709216386608932173856071221638960713216390607192163966071821639560725216402607262164036073221640960916217408)
 (.leaf 6073721641460548215414607392164166055021541660743216420605532154196074921642660934217426607512164286093721742960752216429605642154306076521645560577215454607682164580000000000060770216604000000000006078221661660595215616607872166216078821662260795216629607962166306079821663260610215631608172166516100121765260819216714000000000006082221671700000000000608312172206083021721960833217222608342172236083521722461009218223608392172286084021722960851217240608522172416085821724760857217246608622172516086121725060866217255610422182566087721726660690216265608792172686069421626960883217272606962162716088621727560887217276608892172786089021727960892217384000000000006089821739060899217391609052173976090421739660909217401609102174026091421740660915217407609172174096091621740860920217412607352164126092821742060927217419609312174236110521842360932217424611062184246093621742861110218428609392174310000000000060941217448000000000006094421745160943217450609472174546076321645360949217456611222184566095021745760951217458609522176030000000000060956217607607732166076095921761060776216610609622176136077921661360967217618607842166186097021762160971217622609752176266079221662660982217633609812176326098521763660803216637609932176446080921664360995217646608122166466099721764860814216648609992176506117321865061006218220610052182196101221822661011218225610142182286101521822961023218237610242182386102721824161028218242)))
 (.node 2 (.node 1 (.leaf 6103521824961215219248610402182546122221925561048218262610472182616105121826561050218264610592182736106021827461070218388610692183876107421839260900217392610752183936090121739361082218400610832184016109121840961090218408610952184136127621941361098218416610972184156110021841860925217417611022184206092721741961118218452612972194516112421845800000000000611282186056112721860461131218608611302186076113521861260961217612611522186296097821762961153218630609792176306115621863361155218632611602186376098621763761162218639611632186406116521864260991217642611682186456116721864461177218654000000000006120421923761205219238612192192526140022025261220219253614012202536123221926561050218264612352192686105521826961239219272610572182716124021927361241219274612432192766124421927761253219390612522193896125621939361435220392612642194016126521940261272219409610902184086127421941161454220411612772194146127621941361278219415610972184156128621942361287219424612902194276129121942861298219452612972194516130121945561302219456613072196000000000000061308219601000000000006132521961861324219617613432196366152822063561351219644611662186436135421964761539220646613672202190000000000061368220220615582212206137622022861567221229613802202326138122023361383220235615742212366138522023761386220238613932202456139222024461397220249613962202486141622026861236219269614182202706123721927061419220271612382192716142222027461242219275)
 (.leaf 6142722027900000000000614302203876142922038661438220395614392203966144122039861442220399614612204186165022141861463220420616532214216146422042161653221421614652204226165422142261472220429000000000006147422044961473220448614762204516129621945061479220454614782204536148222045700000000000615002206076149922060661503220610613172196106150922061661323219616615192206266133221962561523220630615242206316152722063461723221635615302206376152922063661532220639615332206406153422064161348219641615642212266137322022561566221228615672212296158322124561582221244615992212616140822026061602221264614112202636161422127661812222277616162212780000000000061623221391616222213906163922140761640221408616442214126164322141161652221420616532214216165822142661469220426616602214286166122142961663221447000000000006166522144961664221448616712214556186722245561673221457000000000006168222159400000000000616832215950000000000061685221597614902205976169422160661693221605616982216106150222060961700221612615052206126170622161861898222618617092216216170822162061711221623617102216226171722162961716221628617252216376191622263661729221641615352206426173122164361535220642617322216446153722064461737221649617362216486174022165261741221653617442216566154922065661755222220000000000006176322222861958223228617702222356177122223661786222251617872222526179022225561985223255618062222716180522227061809222274620052232756181122227662007223277))
 (.node 1 (.leaf 6181822239161817222390618212223946162622139461824222397616302213986183222240561833222406618372224106164222141061839222412616432214116184122241461842222415618432224166203722341661844222417620392234186184722242061848222421618572224300000000000061864222452618632224516186622245461865222453618762225966168422159661878222598616862215986187922259961687221599618812226016168922160161884222604616922216046188522260561693221605618912226116189022261061911222631617202216326192222264261730221642619302226506212522365061938222658000000000006195222322262146224222619552232256176022222561960223230619612232316196522323561966223236619752232456216822424461977223247617822222476197922324961980223250619892232596198822325861996223266618002222656199922326961803222268620032232736219722427362008223387000000000006201322339262012223391620172233966221122439762019223398618262223996202122340062022223401620262234056202722340662032223411618382224116203522341462036223415620412234206204222342162045223424622382244246206222345600000000000620672235926187122259162078223603618832226036209022361561895222615620942236196209322361862097223622619022226226209922362461904222624621022236276190722262762112223637623082246376211422363962310224639621192236446231522464462121223646623172246466212322364862319224648621272236526212822365362151224227619572232276215222422800000000000621572242336235122523462162224238621632242396216522424162166224242)
 (.leaf 6217022424662169224245621732242496217422425062183224259621822242586219022426662189224265621922242686199822326862207224393622062243926220922439562210224396622242244106203022340962240224426624312254266225322445262057223451622562244550000000000062259224588000000000006226222459162065223590622642245936245222559262272224601620772236026228122461062280224609622842246136228322461262291224620622902246196230022462962104223629623042246336230522463462311224640625002256406231222464162501225641623202246496250922564962325224654621292236546232722465662328224657623302246590000000000062331224660000000000006233822522162527226220623502252336235122523462353225236625442262376235422523762355225238623632252466236222524562367225250625582262516237822526162377225260623832252666238222526562404225399622132243996240922540462218224404624102254056221922440562411225406622202244066241222540762413225408624182254136241922541462433225428626202264276243522543062244224430624372254460000000000062439225448626252264476244122545062628226450624462254550000000000062449225589622602245896245422559462453225593624582255986226922459862462225602622732246026246422560462276224605624732256136265922661262475225615626612266146249022563062491225631624932256336268122663462495225635626822266356250322564362690226643625302262236271522722362532226225000000000006253522622862720227228625362262296272122722962541226234625422262356255422624762553226246))))))))
 (.node 64 (.node 32 (.node 16 (.node 8 (.node 4 (.node 2 (.node 1 (.leaf 6257222626562571226264625752262686238622526962585226392625842263916258622639362587226394625892263966276922739662596226403627762274036260322641062602226409626052264126260622641362615226422626162264236261922642662800227427626232264300000000000062630226452626292264516263122645362444225453626352265886281322758762643226596626422265956264622659962460225600626542266076246722560762655226608624682256086266222661562840227614626652266186266422661762673226626624862256266269222664562872227646626942266476287322764762696226649626952266486271222722062711227219627142272220000000000062718227226000000000006273222724062733227241627392272476273822724662741227249627422272506275122725962566226259627522272606256722626062754227262625692262626275522726362569226262627662273936294322839362768227395629452283956277122739862948228398627732274006295022840062774227401629512284016279222741962612226419627942274216279522742262812227455000000000006281522758962814227588628232275976282222759662827227601628282276026283322760762832227606628412276156284022761462848227622628472276216285422762862855227629628562276306303422863162857227631630352286326286322763763040228637628672276416304522864262870227644628692276436287722765162876227650628792276536270022665362888227662000000000006289122822000000000000628962282250000000000062903228232629042282336291322824262914228243629192282486291822824762940228390629392283896294922839963127229399)
 (.leaf 6295222840263130229402629552284056313322940562958228408627822274096296522841562788227415629792284296297822842862983228449631602294486298622845263164229452629882284540000000000062991228588629902285876299622859362818227592630002285976299922859663016228613630152286126302722862463028228625630292286266303022862763032228629630332286306304722864463224229643630542286516305322865063057228654630582286556306322866062885227659630692292180000000000063075229224000000000006307922922863259230229630812292306290122823063085229234630862292356309022923963270230240630972292466309622924563105229254629242282536310822925762928228257631102292596292922825863112229261631132292626311922939163118229390631212293936312222939463132229404633102304046313522940763134229406631392294116296222841263145229417629672284176314822942062970228420631512294236333023042463153229425633312304256316222945063161229449631812296006318222960163184229603630072286046318922960863012228609631922296116301522861263199229618630212286186320122962063023228620632042296236320322962263211229630632122296316323222965163053228650632382296576306022865763250230220632492302196325623022663255230225632572302276343123122763264230234632652302356327623024663275230245632792302496328023025063297230391632962303906331523040963314230408633182304126314022941263320230414633212304156332223041663321230415633272304216332823042263337230451000000000006334223058700000000000))
 (.node 1 (.leaf 6335323059863352230597633592306046318522960463361230606631872296066336623061163367230612633682306136319522961463386230631635542316326339923064463566231644634022306476340123064663404230649635712316496340823065363575231653634092306546357523165363417230662635842316626342423122063423231219634342312306360223223163437231233636052322346343923123563440231236634502312466361723224663453231249634542312506346423126063463231259634702313916346923139063477231398634782313996348923141063488231409634962314176349723141863498231419634972314186349923142063500231421635142315926351323159163519231597635182315966352223160063523231601635252316036352623160463530231608636932326086353123160963694232609635402316186353923161763544231622633782306236357323165163736232651635742316526373723265263578231656635772316556358023165863581231659635912322206359023221963594232223000000000006359623222500000000000636132322426377723324363625232254634572312536363123226063630232259636372323926363623239163639232394638012333946364423239963807233400636512324066348523140663654232409634882314096365623241163818233411636682324236366923242463676232591636752325906367923259463678232593636822325976368123259663688232603636892326046369723261263859233612636992326146386223361563700232615638622336156370323261863865233618637062326216386823362163711232626638732336266371423262963877233630637162326316371723263263728232643638902336436373123264663568231646)
 (.leaf 6373823265363900233653637482326636358523166363750232665635872316656375323321963752233218637602332266392323422663761233227635992322286376323322963926234229637682332346393123423463774233240639382342416378123324763780233246637872332536395023425363789233255637882332546379423326063795233261637972333900000000000063804233397638032333966381323340663812233405638262334196382523341863829233422638302334236383423358700000000000638362335896367423258963840233593638392335926384423359763843233596638472336006384823360163866233619640272346186386923362264031234622638702336236403323462463871233624640332346246387523362863876233629638862336396404823463963888233641638872336406389123364464052234643638972336506405923465063904233657640672346586392123422464085235224639302342336409423523363954234257639532342566395523425864119235258639592342620000000000063962234392639612343916396923439964133235399639762344066381223340563979234409641432354096398423441463820233413639882344186382423341763991234421639922344226400223459364001234592640072345986400623459764014234605640152346066401723460864016234607640192346106402023461164022234613640232346146403523462664198235626640552346466405423464564063234654642262356546407423466564237235665640792352186407823521764082235221640812352206408323522200000000000640842352236408523522464096235235642582362356409723523664259236236640982352376426023623764114235253639502342536411523525463951234254)))
 (.node 2 (.node 1 (.leaf 6411723525663953234256641202352596411923525864126235392641252353916413123539764132235398641392354056397523440564148235414639832344136415023541663987234417641542354206431523642064158235424641592354256416723559564168235596641702355986416923559764173235601641742356026418823561664349236616641922356206435323662064197235625643582366256420123562964202235630642242356526438523665264225235653643862366536423123565964230235658642382356660000000000064240236217000000000006426123623864422237238642622362396442323723964266236243644262372426426823624564267236244642702362476426923624664274236251642732362506428223625964281236258642852362620000000000064290236395642892363946429623640164295236400643052364106430423640964309236414643082364136431223641764151235417643172364226431823642364321236588000000000006432423659164323236590643272365946432623659364329236596643282365956433823660564497237606643412366086434223660964346236613643472366146436223662964363236630643742366416437323664064376236643642152356436438223664964540237649643932366606455023765964396236663642342356626440023666700000000000644032372196440223721864405237221645642382216440723722364566238223644122372286457123822864414237230645742382316441523723164574238231644322372486443123724764437237253645962382536444323725964442237258644602374056445923740464467237412644662374116446823741364307236412644702374156462623841564474237419644752374206447823742364479237424)
 (.leaf 6448923759864332236599645082376176466323861764521237630645222376316452423763364367236634645322376416453123764064536237645646912386456453923764864694238648645572376666455823766764560238217000000000006456323822064719239221645652382226472123922364568238225647232392256457323823064574238231645872382446474223924464600238257647552392576460323826000000000000646042383930000000000064608238397646072383966461123840064456237401646282384176478123941764636238590646352385896464223859664641238595646442385986464523859964674238628648252396286468423863864685238639646902386446484123964464693238647646922386466469523864964845239648647082386626455323766264716239218647152392176472523922700000000000647312392336488124023364737239239648872402396474023924264889240241647462392486459123824864749239251647482392506475623925864755239257647602393966475923939564767239403647662394026477523941164774239410647802394166493024041664785239421647862394226478723959000000000000647972396006464623860064799239602648002396036482423962764973240627648282396316482923963264834239637648332396366483823964164837239640648512396546485023965364856239659648552396586485823966164706238660648592396626470723866164861239664647112386656486624021865014241217648742402266472423922664880240232648812402336488324023565032241235648852402376488624023864900240252647512392536490824039400000000000649122403986506124139864917240403649162404026493324041965083241420))
 (.node 1 (.leaf 6493424042064935240421649382405926508724159264944240598649432405976495424060865103241608649602406146510924161464963240617651122416176496624062065116241621649692406236496824062264978240632649792406336498724064164986240640649912406456484123964465022241225651712422256502624122964877240229650292412326503024123365034241237650352412386504024124365188242242650442412476489424024665047241250648982402506505024125365051241254650552412586505424125765058241395000000000006506024139765207242397650702414076492124040765077241414650762414136508024141765228242418650812414186522824241865085241590000000000006509724160265098241603651062416116525224261165107241612652532426126510824161365254242613651102416156511124161665120241625652662426256512524163065271242630651282416336512924163465131241636651302416356513824164364989240643651472416526499824065265156241661651552416606515924166465160241665651632422176531024321765177242231651782422326518324223765184242238651922422466519124224565205242395000000000006520824239865207242397652162424066506924140665218242408652192424096522724241765228242418652302424200000000000065235242594652342425936523924259865093241598652402425996509424159965241242600653852436006524524260465246242605652672426266541124362665279242638651342416396529224265165146241651652972426566515024165565302242661651552416606530624266500000000000653122432196531324322065324243231653252432326533024323765474244238)
 (.leaf 6533824324565337243244653412432486548524424965344243251653432432506534724325465491244255653552434006521024240065356243401652102424006535824340365212242402653652434106550724441165369243414655102444146537124341665513244417653732434180000000000065381243596653802435956538624360165526244601653902436056538924360465392243607653932436086540324361800000000000654232436386528024263965425243640652812426406542624364165282242641654292436446556224464465432243647654312436466543824365365439243654654432436586544224365765449243664654502436656545324421700000000000654562442206531324322065464244228653212432286546524422965322243229654672442316546824423265471244235656042452366547324423765474244238654812442456548024424465488244252656212452536549324439765352243397654952443996549424439865502244406656342454066550324440765635245407655052444096563724540965509244413655102444146552224459765521244596655282446036538824360365533244608656632456086553824461300000000000655392446140000000000065540244615000000000006554224462400000000000655472446296554624462865550244632654172436326555424463665420243635655562446386542424363965569244651654352436506557324465565439243654655762446586557524465765578244660655792446616558624521865585245217655882452206558924522165594245226654622442266560024523265601245233656082452406573024624065610245242657332462436562024525265621245253656252453976562424539665627245399654942443986563224540465631245403))))
 (.node 4 (.node 2 (.node 1 (.leaf 6563324540565634245406656472455926564624559165651245596655212445966565424559965774246599656612456066566224560765665245610000000000006566924562800000000000656802456396579624664065683245642657992466436568624564565685245644656912456506580524664965708246218658232472186571624622665831247226657212462316572224623265728246238657292462396573824624865737246247657412462516574224625265751246401658652474026575524640565867247404657662465910000000000065770246595657692465946577924660465892247604657812466066589424760665787246631657862466306579024663400000000000657972466416590924764165814246658656992456586581724666165818246662658262472216571224622265829247224659402482256583324722865834247229658352472306594624823165836247231658372472326584224723765843247238658552472506585624725165857247252657432462536585924739600000000000658612473986586224739965863247400658642474016587524741200000000000658852475976599224859865886247598659932485996588924760100000000000658902476020000000000065901247633000000000006590524763765792246636659072476396600624863965915247647660132486466592624765865925247657659292476616593024766265933248218659322482176593824822365939248224659442482296594524823065949248234660492492346595024823566050249235659522482376605224923765954248239659552482406596124824666062249247659632482486596224824765986248592660712495926599024859665991248597660002486320000000000066003248636000000000006602024865366019248652)
 (.leaf 6602224865565922247654660252486586592524765766032249217660312492166603324921865932248217660362492216603724922266044249229660452492306604824923366130250233660582492430000000000066072249593661452505936607424959566147250595660832496360000000000066094249647660932496466611325021666112250215661182502216611925022266124250227661232502266612725023066128250231661462505940000000000066157250640661562506396615925064266089249642661762506596610724966066186251218661852512176618725121966251252220661892512210000000000066192251224661932512256619525122766194251226661982512306619925123166218251637000000000006622125164066220251639662252516446616125064466226251645661622506456623425165366169250652662362516556629625265466247252216661842512166625525222466256252225662602522296626125223066266252235662672522366627225224166273252242662832526416628225264066288252646662272516466629025264866229251648663002526586623925165866302252660000000000006630925321666308253215663122532196631325322066316253223663782542246632225322966323253230663282532350000000000066331253238662702522396633225323966270252239663342532416627325224266336253243663372532446634225364166341253640663462536456634525364466348253647662892526476635825365766357253656663702542166636925421566372254218663732542196637925422500000000000663812542276644225522766384254230663242532316638625423266387254233663902542366632925323666391254237663302532376639725424366398254244))
 (.node 1 (.leaf 6640325464066402254639664062546436640525464266414254651664132546506641725465466477255655664222546590000000000066426254711000000000006642725521200000000000664372552220000000000066441255226664422552276644525523066446255231664482552330000000000066459255244664602552456646525564366464255642664712556490000000000066472255650000000000006649325621566547257214664952562176643125521666496256218664972562196650925623166510256232665122562346656625723366516256238665712572386651725623966572257239665192562416652025624266527256645000000000006652925664766530256648665322566500000000000066535256653665362566546654225671366487255713665532572206649825622066567257234665682572356657025723700000000000665732572400000000000066577257645000000000006659025771166591257712665942577150000000000066598258215665972582146660125821866639259218666032582206664225922166607258224000000000006661325823066652259231666272587106666525971066631258714000000000006663625921566635259214666452592246664625922566664259709000000000006666725971266668259713666722602156667126021466680260223666812602246668526022866686260229666912602346672826123566701260710000000000006670226071166739261710667072612146670626121366714261221667512622216671626122366717261224667192612266668426022766721261228000000000006673426165500000000000667432622136678126321266747262217667102612176675026222066751262221667542622246671826122566759262229000000000006676126223200000000000)
 (.leaf 6676426264900000000000667672626520000000000066774262706000000000006677826271000000000000667912632226675226222266796263227667972632286680026365066799263649668042636546676926265466808263704668072637036681126370766812263708668172642140000000000066819264216667842632156682126421866858265219668232642200000000000066828264225668652652266682926422600000000000668312642286683226422966843264702000000000006684726470666848264707668532652140000000000066857265218668582652196686026522100000000000668622652230000000000066867265228668682652296687326565166836264650668752656536687626565466880265702000000000006688326570566884265706668902662166688926621566896266222668972662236690826665366909266654669172667046691826670566928267216669272672156693226722000000000000669412672290000000000066951267703669522677046696026821666959268215669632682196699126921966966268222000000000006696826822400000000000669732682290000000000066978268700670072697006698026870200000000000669812687030000000000066987269215669862692146699026921866991269219669922692206699326922166995269223669962692246700026922800000000000670052696986703427069867015270215670142702146701827021867048271219670262702260000000000067027270227000000000006703327069767034270698670352706996706027169867041271212000000000006704727121867048271219670542712250000000000067057271695670832726956706227170067088272700670672722120000000000067075272220670762722216707927222400000000000)))
 (.node 2 (.node 1 (.leaf 6708227269400000000000670842726960000000000067085272697671112736976709527321467096273215671062732250000000000067114274211000000000006711827421567117274214671212742186712227421967126274223671272742246713027422700000000000671432752180000000000067148275223671492752246716127621667162276217671662762216716727622267176277211000000000006718027721567179277214671822772170000000000067185277220671862772216718927722467190277225671972782110000000000067204278218000000000006721927921100000000000672222792146722327921567224279216672252792176723227922400000000000672412802110000000000067243280213672442802146725928121467274282214672622812176726328121867266281221000000000006727728221767278282218672942832166729528321767319284220672992832216733428521700000000000673352852180000000000067354286223000000000006736728722267368287223673812882250000000000067396289223673952892226740128922800000000000674162902250000000000023352074163228960731632985408919530254090195302550901963064909119530403090477304040904783063909118530245090186310260921853064009118631407093185310270921863178209418531408093186321440951853178309418632613096466326140964675470718342454708183425000500132910005101329200092014217000000000000009701422200098014223001320142820000000000000137014287001380142880014901429900280015299001780151940000000000000180015196000000000000018701520300186015202001930152090019201520800198015214000890142140021301522900357016230)
 (.leaf 21601523200217015233002700152890027101529000310016183003090161820031301618600000000000003160161890017201518800327016200000000000000033201620500333016206003340162070033301620600340016213003410162140036801624200000000000003750162490023001524900481017182004800171810049301719400492017193004990172000050001720100511017212005120172130054801724900547017248005870172880041401628800590017291004170162910059201729300419016293005930172940042001629400594017295004210162950059801729900597017298006110173120061201731300620017321006210173220066401817200663018171006690181770000000000000678018188000000000000069401820400000000000006990182090069801820800707018217007080182180071201822200000000000007270182370053601723700777018287005860172870079501830500796018306008840191720066301817100889019177008900191780089301918100000000000009080191970000000000000911019200006890181990092401921300925019214009390192310093801923000991019283007730182830099401928600776018286010090193010101001930201015019307010160193080102101931301022019314011070201720110602017101118020183008960191840111902018401120020185011250201900112402018901130020195000000000000113102019600000000000011360202010113502020001144020209011450202100115702023301156020232012060202820099001928201254020387000000000000126302039600000000000013200211750000000000001324021179013230211780133702119200000000000013420211970156202219601347021202013480212030135002120500000000000))
 (.node 1 (.leaf 136402122700000000000013660212290000000000001371021234011580202340137202123501159020235013730212360116002023601374021237011610202370137702124001164020240014520213150145302131601471021391000000000000152302215200000000000015280221570000000000001541022175015400221740154802218201766023183015490221830000000000001567022201015680222020157402220800000000000015800222180000000000001600022238013750212380160302224101378021241016060222440138102124401608022246013830212460161102224901386021249016120222500138702125001615022253013900212530161602225401391021254016170222550139202125501618022256013930212560161902225701394021257016200222580139502125801621022259013960212590164502228301646022284016490222870142502128801672022310014470213100167802231601679022317016940223890000000000001773023191017720231900177802319601561022195017830232010178402320201787023205017880232060183802326001622022260018390232610162302226101840023262016240222620191102339301910023392019150233970000000000001948024138000000000000199002420101991024202020180242360201702423502045024263018410232630204702426501843023265020480242660184402326602074024292018700232920208702430501883023305020950243130209602431402111024392021100243910216302518500000000000021690251910000000000002174025196000000000000219402522700000000000022340252670204902426702235025268020500242680223702527002052024270022550252880207002428802269025302020840243020227402530702275025308)
 (.leaf 228402531702285025318023140255640000000000002324026119000000000000238302620100000000000023940262240239302622302407026237026280272370241002624002631027240024120262420263302724202413026243026340272430241802624802639027248024200262500264102725002441026271022380252710245702628702253025286024790263090248002631002514026564025130265630252302657300000000000025240265740000000000002529026579000000000000253102658100000000000025690271590000000000002586027178000000000000259802719000000000000025990271910000000000002601027193000000000000262302723200000000000026290272380000000000002630027239000000000000263202724100000000000026350272440285602824402637027246028580282460263802724702859028247026440272530286402825202645027254028650282530264602725502866028254026470272560286702825502648027257028680282560264902725802869028257026520272610265102726002678027287024560262860268702729602466026296026890272980246802629802690027299024690262990269102730002470026300026940273030247302630302697027306026980273070270702731600000000000027580275710275702757002794028129000000000000279902813402800028135028030281410000000000002819028160000000000000283402818200000000000028740282620310502926102882028270028810282690288402827202663027272028850282730266402727302886028274026650272740289902828702677027286029210283090270102731002925028313027040273130293202832000000000000029530285430000000000002961028551000000000000296702855702968028558)))))
 (.node 8 (.node 4 (.node 2 (.node 1 (.leaf 297602856602754027567029790285690322102957002986028576029850285750299102858102992028582030550291670000000000003060029172000000000000306302917702828028176030720291860307302918703074029188030730291870310802926403340030263031100292660334303026603111029267033430302660313102928702898028286031410292970290902829703159029315031600293160316102931700000000000032000295490320102955003212029561032110295600321502956402973028563032270295760322602957503236029585000000000000324102963400000000000032460296390324702964003326030249035320312480333303025603539031255033460302690334503026803352030275031190292750335303027603120029276033640302870313002928603403030472000000000000342703054203426030541034320305470343303054803442030557034430305580346403057903671031580034660305810000000000003468030583000000000000354003125603757032255035570312730355603127203561031277033540302770356203127803355030278035630312790335603027903564031280033570302800356503128103358030281035660312820335903028203568031284033610302840356903128503361030284035700312860336203028503571031287033630302860357403129003367030290035770312930337003029303578031294033710302940358403130003803032301035870313030380503230303590031306035910313070359503131103813032311035970313130359803131403616031477000000000000362803153703627031536036360315450363503154403639031548038600325480364403155303866032554036530315620344603056103659031568036580315670366303157203884032572)
 (.leaf 366603157503667031576036830321120000000000003697032126036980321270371803217003717032169037200321720351703117203758032256040060332550377203227003771032269038170323150381803231603824032469000000000000383003247500000000000038360325240000000000003847032535038460325340386903255704126033556038740325620387503256303890032579000000000000392603311603925033115039290331190393003312003953033159000000000000395703316300000000000039610331680000000000003970033177000000000000397203318200000000000039810331910000000000004020033269040190332680404803329704049033298040720334680000000000004077033473000000000000409103352100000000000041270335570412603355604165033595041660335960419603411304195034112042220341390000000000004249034172000000000000425903418504260034186042610341880000000000004264034191045480351900426903419604270034197043080342740430703427304335034301046220353010433803430404056033305043520344660435103446504357034471043580344720436203450100000000000043740345210000000000004379034526043800345270438303453004382034529043900345370438903453604396034543043950345420439803454504399034546044090345560441003455704434034581044350345820443803458504439034586044480345950444703459404463034610044620346090447003461700000000000044880351150448703511404498035125044990351260450703513404508035135045150351420000000000004517035144000000000000454203518304541035182045490351910000000000004554035196045550351970455603519800000000000))
 (.node 1 (.leaf 456103520300000000000045620352040000000000004575035254045740352530459703527604905036275046090352880491903628904612035291046130352920461603529504925036295046280353070462903530804639035465046380354640464503547100000000000046460354970000000000004654035505000000000000466503552000000000000046690355240000000000004680035535046790355340468403553904685035540046930355480469403554904697035552050110365510470203555704701035556047070355620441503456204714035569047130355680471803557304425034572047340355890473303558804739035594047380355930474203559704743035598047450356000474403559904771035645047720356460479203611304791036112048070361290480603612804815036137048140361360482103614300000000000048230361450000000000004830036160000000000000484403618104843036180048560361930485503619204871036208000000000000487303621000000000000048900362600488903625904893036263052180372620489603626605221037265048990362690522503726904908036278052330372770490903627905234037278049100362800523503727904911036281052360372800491203628205237037281049150362850491603628604944036314000000000000495503647004956036471049580364970495703649604963036502049640365030497603651600000000000049900365300467603553105026036566050250365650505803659805059036599050700366100506903660905073036613050740366140509003664105089036640050950366460509603664705105036656051060366570515003714505149037144051540371490515503715005161037168000000000000516503717205166037173)
 (.leaf 517103718400000000000051810371940518003719305192037205051910372040522403726805588038268052280372720559103827105231037275055940382740523203727605595038275052390372830560203828205249037293049230362930525203729605617038297052560373000493103630105260037304056250383050526403730800000000000052660373100000000000005267037311000000000000527803746400000000000052810374670000000000005286037472000000000000528903749500000000000052960375020529703750305304037510000000000000530503751100000000000053210375270532003752605329037535053300375360535703756305024036564053630375690536203756805367037573050320365720537003757605371037577053740375800537503758105382037588053810375870539403760005395037601054130376190000000000005420037629000000000000543203764105431037640054450376540544603765505452037661000000000000549603813505495038134054980381370590603913605502038141055030381420551103815005512038151055190381670000000000005526038174000000000000553703819005177037190055420381950554303819605553038206055520382050555703821005966039209055870382670599903926705604038284056030382830562203830200000000000056670384970566603849605672038502056730385030568803851905687038518056990385300532503753105705038536053300375360571103854205336037542057130385440571403854505727038558057260385570574503857606158039575057570385880617003958705763038594053880375940576803859905769038600057740386050577303860405779038610057800386110578803861900000000000)))
 (.node 2 (.node 1 (.leaf 579103862200000000000057920386230000000000005796038627057950386260580903864005808038639058350386660000000000005842038673054570376730584503867600000000000058600390420585903904105874039056000000000000588803907300000000000059050391350000000000005908039138059070391370592103915105513038152059340391720593503917305948039191059490391920595903920200000000000059700392130597103921405973039216000000000000597403921700000000000059770392200000000000005994039262059930392610603003929806031039299060360393040000000000006061039410000000000000608203949806081039497060870395030608803950406094039511060950395120611003952700000000000061150395320570103853206163039580061640395810616703958406168039585061720395890617103958806179039596061800395970619803961505783038614062160396330621703963406225039642062260396430622803964506229039646062380396550623703965406247039664058330386640627704004406278040045062820400490628304005006284040051062830400500629304006005879039061062980400650588303906506308040075000000000000630904007600000000000063280401030632704010206346040129063450401280635804014106359040142063680401510636904015206386040173063870401740639304019000000000000064120402090691604120806422040219064230402200646004028106964041281064640402850696904128606466040287069700412870646704028806972041289064880403090648904031006502040400000000000000650404040200000000000065200404180652104041906528040426000000000000654504049806544040497)
 (.leaf 655204050500000000000065630405170656404051806568040522061050395220658604054006585040539065910405450659204054606597040551065980405520659904055306598040552066040405580660504055906616040570061520395690661904057306155039572066360405900663504058906645040599061820395990664704060106648040602066520406060665304060706661040615061970396140666704062106205039622066940406480669504064906703040657067020406560671004066407223041664067190406730672004067406726040680000000000000673604069000000000000067490407060000000000006763041037062690400360676504103906272040039067720410460677304104706791041065067900410640679304106706300040067068210410990682004109806842041120000000000000685404113406853041133068580411380685904113906864041144068650411450686904114906868041148068930411740689204117306901041189000000000000690604119406907041195069210412130692004121206929041221000000000000697604129307502042293069770412940750304229406981041298069820412990700304139807002041397070120414070650904040707015041410070160414110701904141407543042413070450414820653304048107051041488070520414890705804149807606042498070630415030706404150407074041515070730415140707804151906564040518070850415260708604152707088041529065750405290709204153307091041532071010415420710004154107106041547065920405460711804155907119041560071220415630767104256407125041566071260415670712904157007128041569071340415750713504157607142041583076900425830714604158707147041588))
 (.node 1 (.leaf 715104159207152041593071610416020770904260207169041610071680416090717204161306659040613071790416200718004162107186041627071870416280718904163006675040629071980416390719904164007201041642072000416410720504164607753042646072140416550721304165407219041660072200416610723504167607236041677072600417030725904170207273041716000000000000729304204107294042042073040420520677804105207308042056067820410560730904205706783041057073110420590678504105907314042062067880410620733004207806805041079073340420820680904108307337042085000000000000734604209406817041095073500420980682004109807428042180000000000000743804219407439042195074500422120744904221107455042217080000432170749504228606970041287074980422890697204128907534042404080820434050754104241107016041411075480424180754904241907556042426070310414260756504243500000000000076000424910759904249007630042523076290425220764104253407640042533076510425440765004254307659042552076600425530766704256008225043561076830425760768404257707687042580076880425810769404258707147041588076990425920770004259307707042600077080426010772104261407720042613077260426190772704262007743042636077440426370774804264107749042642077580426510775904265207767042660077680426610777804267107231041672077930426860779404268707797042690077960426890780304269607802042695078200427130781904271207821042714072700417130783004300300000000000078340430280000000000007875043069078740430680787904307308437044073)
 (.leaf 788104307508439044075078850430790788604308007887043081078860430800792304311707922043116079290431230793004312407946043146000000000000794804314800000000000079490431490000000000007966043174079670431750798104319107982043192079970432140799604321308020043263074710422620803004327308029043272080380432810861404428108047043290080480432910805104329400000000000080530432960000000000008059043302000000000000807004339300000000000080750433980807604339908080043403080810434040808604340908651044409080890434120754304241308090043413086550444130809604341908097043420081070434300756004243008124043460000000000000813304346900000000000081370434730813804347408148043484081470434830815304348907598042489081590434950816004349608162043498081610434970816704350307611042503081770435130874904451408185043521081840435200819204352808191043527082060435420820504354108238043574082390435750826304359908264043600082730436090827204360808278043614082770436130828504362107729042622082890436250829004362608299043635082980436340830904364507753042646083220436580832304365908332043668077750426680835304368908924044689083640437000780704270008368043704083670437030837604371208375043711083820437180838304371908395044031000000000000841104404708410044046084190440550899104505508453044089078950430890846304409908464044100084670441030846604410208480044116084790441150851704415300000000000085200441560000000000008521044157000000000000852204415800000000000))))
 (.node 4 (.node 2 (.node 1 (.leaf 852704416300000000000085310441670000000000008543044179085440441800855804419600000000000085750442220857404422108606044273086050442720861204427909187045279086150442820919104528308617044284091920452840862204428908623044290086360443940863704439508641044399086420444000866504442308666044424086680444260866704442508677044435086780444360869504445800000000000087120444750813804347408718044481087170444800872604448909298045489087310444940873204449508762044527087610445260876304452808191043527087750445400877404453908786044551093590455520878804455309360045553087920445570879304455808807044572088080445730882604459108827044592088490446140884804461308854044619088550446200888604465108315043651088870446520831604365208888044653083170436530889404465909467045660089360447010836504370108945044710089440447090895204471708953044718089600450050839004400608962045007089630450080896404500900000000000089740450380955104603808989045053095650460520899504505908994045058089980450620899904506309022045086090210450850904404510808472044108090460451100904704511109048045112090470451110907004513409071045135090750451390907604514009082045146090810451450908804515208516044152090960451600909504515909112045176085400441760912004518409121045185091270451910912604519009132045196091330451970914304521809715046218091760452680917504526709177045269086010442680917804527008602044269091800452720860404427109186045278097610462780920604539009205045389)
 (.leaf 921104539509787046396092330454170923204541609244045428098190464280924704543109822046431092500454340925104543509264045455000000000000927804546909277045468092850454760928404547509292045483098690464820930404549509882046495093070454980930604549709312045503000000000000931804551109319045512093310455240933004552309341045534093400455330935204554509351045544093710455640879804456309376045569093750455680938004557309381045574093920455850939304558609396045589093970455900940504559809406045599094110456040941204560509421045614094200456130942604561909427045620094430456360944204563509465045658094660456590948604567909485045678095060456990950504569809512045705095130457060951504570809514045707095180457111009604671009529046002089570450020954404601700000000000095620460490956104604809572046059095710460580957504606209576046063095900460770958904607609594046081101830470820959904608609021045085096170461040961604610309631046118102190471180963504612209634046121096390461261022604712509650046137096510461380968604617309109045173096890461760968804617509696046183102850471840970704619409708046195097220462251030904722609750046267091740452660975104626809175045267097590462761034404727609786046395103890473960979304640209794046403098120464210981304642209842046455000000000000984604645909269045460098580464710985904647209866046479098650464780987804649110485047492098980465120989904651309915046529099140465280993404654810541047548))
 (.node 1 (.leaf 993504654909936046550099420465560994304655709945046559099460465600996604658009965046579099710465850939304558609974046588105810475880997704659109978046592099840465981059204759909990046604099910466050999704661109996046610100000466140942004561310007046621094280456211001404662809435045628100240466381002304663710028046642100290466431003204664610031046645100390466531004004665410048046662094700456631005204666610051046665100560466700947704567010061046675100600466741008104669510080046694100870467011069304770010092046706106990477061009904671310098046712101030467171010404671810109047003101080470021014304704210142047041101570470561015604705510174047073101730470721017704707610176047075101840470830959604608310192047091096040460911019904709809612046099102000470991020104710010208047107102070471061023404713310233047132102390471381024004713910243047142096550461421024604714500000000000102500471491025104715010256047155096680461551026404716309676046163102880471870000000000010296047213102950472121030304722009716046219103100472270000000000010313047230000000000001033504726709749046266103430472751034404727610353047285000000000001035504728700000000000103560472880000000000010357047289000000000001038104738810380047387103870473941038804739510412047419104130474201041904742610420047427104300474370000000000010446047453098390464521045904746610458047465104770474841047604748310486047493104850474921049804750510497047504)
 (.leaf 1050104750810500047507105070475141050804751510514047521105150475221053704754411138048545105470475541054804755510556047563105550475621055904756610560047567105710475781117104857810585047592111860485931058804759510589047596105940476011119504860210606047613106050476121061104761810004046618106300476371062904763610635047642106360476431064904765610043046657106580476651065704766410667047674100600466741067404768110066046680106790476861007204668610684047691100760466901070804771511307048714107190480070000000000010724048012101180470121072604801400000000000107470480381013804703710754048045113470490451076104805211353049051107700480611076904806010773048064107740480651079004808110183047082108200481111081904811010836048127114290491271084704813810848048139108770481681087604816710882048173114740491721088604817710887048178108900481810000000000010905048213109040482121093204825910931048258109350482621033004726210938048265103320472641093904826610333047265109400482671033404726610944048271109450482721097004832000000000000109800483300000000000010988048386103780473851099304839110994048392109950483931099604839411017048415110160484141102304842111024048422110290484271103004842811048048455110470484541105204845911053048460110550484621163804946211073048480110720484791108104848811082048489110940485011109504850211101048508116830495071110604851311107048514111100485171110904851611115048522111160485231112304853011124048531)))
 (.node 2 (.node 1 (.leaf 1113504854211134048541111510485581173504955911157048564117390495631116204856911163048570111650485721116604857311177048584105780475851118004858711181048588111890485961177304959711200048607112010486081120404861111203048610112090486161120804861511214048621112150486221121804862510618047625112290486361122804863511235048642112360486431124204864910642047649112500486571125104865811269048676112700486771128704869411288048695112960487031129704870411310048717113090487161131704900700000000000113180490080000000000011332049030113310490291133804903611339049037113450490431134604904411349049047113480490461136304906111937050060113720490701137304907111379049077113780490761138404908211385049083113860490841079404808511391049089107980480891139504909310802048093113990490971080604809711406049104114050491031141004910811411049109114810491791205605017911487049185000000000001150304921310904048212115610493251097504832511563049327109770483271156604933010981048331115670493311098104833111576049390121540503911158504939911586049400115970494161159604941511603049422116040494231162004944411038048445116230494471104004844711648049472110640484711165304947711071048478116630494871224305048711670049494116690494931167404949811675049499116790495031109604850311689049513116900495141170004952411117048524117040495281170304952711709049533111270485341174504956912325050569117630495871234405058811792049616112080486151179704962111798049622)
 (.leaf 1179904962311216048623118030496271122004862711806049630112230486301182004964411821049645118290496531124504865211833049657118340496581184004966411839049663118500496741184904967311859049683118580496821186404968811863049687118950497190000000000011915050038000000000001194605006911945050068119640500871196305008611970050093119690500921197705010011978050101119950501181199405011712005050128125750511281201405013712013050136120320501551260305115612051050174120500501731207605020712646051208121040502601210305025912106050262126740512611211805027412119050275121280503171212705031612148050385121470503841217505041712174050416121940504380000000000012213050457122120504561221805046212219050463122270504711222805047212239050483128080514821225105049512250050494122580505021225905050312266050510122650505091226705051112268050512122750505191227605052012293050537117130495371230105054512871051545123110505551288205155612329050573123300505741235805060212928051602123700506141236905061312377050621129460516201239005063412389050633123940506381239505063912405050649129750516491243405067811854049678124440506881301405168812449050693118700496941247105071500000000000124850510380000000000012497051050119280500511249905105212498051051125100510631193905006212522051075125230510761253005108312529051082125380510911310105209212547051100119780501011254905110212550051103125650511181256405111712580051133125790511321258405113712585051138))
 (.node 1 (.leaf 1259405114712025050148126130511661261405116712628051181000000000001263705119212638051193126580512201208805021912662051224126610512231266705122900000000000126820512691268105126812687051274126880512751269805131912697051318127000513211269905132012713051383127120513821272005139013277052391127210513911272205139212726051396132830523971273605140912735051408127450514181274405141712750051423127510514241278505145912784051458127920514661279305146712798051472133570524731280405147812803051477128070514811280805148212810051484128090514831282305149713380052496128290515031283005150412850051524128490515231285505152912854051528128600515341286105153512862051536128610515351289905157313456052572129050515791346205257812914051588129150515891291805159212919051593129230515971348205259812933051607129340516081294305161713501052617129490516231350705262312962051636129610516351296805164212969051643129720516461297105164512983051657129840516581298805166212418050662129900516641298905166313010051684130090516831302905170313028051702130340517081246405070813047052038000000000001305605204713055052046130630520541306205205313065052056130660520571307105206212508051061130840520751308505207613096052087130950520861310405209513103052094131160521071311705210813123052114131220521131312705211812564051117131310521221313205212313142052133131410521321314705213813148052139131550521461315605214713164052155126020511551319405218800000000000)
 (.leaf 1321705222200000000000132190522240000000000013268052382000000000001327505238913820053389132980524141384305341413311052427133120524281331405243012757051430133260524421387205344313328052444133270524431337205248813373052489133840525001338305249913388052504133890525051339305250913394052510133970525131283905151313399052515134000525161340405252013405052521134570525731345605257213467052583140130535841346905258513468052584135080526241405205362313511052627140550536261352005263613519052635135250526411352605264213536052652135350526511355605267213555052671135580526741300005167413572052688130150516891358005269613579052695135840527001358505270113598052714135990527151362605304814166054048136320530541363105305313656053078136570530791367505309713674053096136800531021311205210313685053107131170521081370805313013707053129137270531491372805315013739053161131710521621378305326013782053259137870532641378605326313795053272143320542721379705327413798053275138100533790000000000013812053381138110533801381705338613818053387138340534051328905240513836053407132900524061385105342213850053421138560534271331205242813860053431138590534301387005344113871053442138840534551333905245513891053462138900534611389505346613351052467138970534681335205246813910053481139110534821392105349213376052492139530535241340805252413960053531134140525301396905354013968053539139730535441397205354313978053549139790535501399305356413447052563))))))
 (.node 16 (.node 8 (.node 4 (.node 2 (.node 1 (.leaf 1399705356813998053569140070535781400805357914032053603134860526021403805360914039053610140420536131404305361414057053628140560536271406405363514595054634140700536411407105364214077053648140760536471408405365514085053656140890536601462105466014093053664146250546641410605367713562052678141190536901465205469114156054038141570540391417705405914712055059141830540651418205406414189054071141880540701419305407513653053075141950540771419405407614212054094142110540931421505409714750055097142200541021475605510314227054109142280541101423805412014237054119142410541231424205412414250054132142490541311425305413514252054134142860541681482205516914290054172148260551731429305417500000000000143420543771434105437614352054387143530543881436505440413832053403143720544111437305441214382054421143810544201438505442414386054425144030544421387105344214414054453138820534531442405446314423054462144370544761443605447514442054481149850554811447805451713945053516144830545221502605552214500054539144990545381451005454913979053550145180545571398605355714558054597145570545961456105460014028053599145760546151404405361514581054620145800546191459605463514595054634146060546451460705464614633054672141010536721464105468015185055681146430546821464405468314647054686000000000001465805469714657054696146640547031413205370314669054708146700547091468205502900000000000146880550351522705603414706055053141700540521474205508914741055088)
 (.leaf 1475105509815290056097147630551101476405511114770055117142340541161479605514314795055142147990551461480005514714805055152148060551531480805515514809055156148410552080000000000014843055210000000000001486105526314860055262148660552681486505526714882055373148810553721489005538115419056381148950553861489605538714935055431154620564311493705543314938055434149400554361494105543714945055441149440554401496905546515495056464149720554681550005646914980055476155060564751499505549114452054491149990554951552705649615004055500155320565011501005550615011055507150150555111554205651115019055515150180555141502905552515555056524150350555311503605553215051055547155780565471505805555415585056554150600555561505905555515069055565150680555641507805557415079055575150920555881454905458815100055596150990555951511005560615111055607151250556211512405562015142055638151410556371515605565214613054652151630556591516405566015172055668146290546681518605568215185055681151990556961519805569515210055707157380567071522405603115223056030152410560481524005604715249056056152500560571525505606215254056061152600560671472005506715271056078147320550791527605608314736055083152850560921528405609115305056112147660551131531605612315317056124153400561471533905614615342056149148020551491535105615814811055158153560561631535705616415359056166153600561671536505617200000000000153720562051537105620415392056264153910562631539805627015914057270))
 (.node 1 (.leaf 1540105627315402056274154100563721540905637115415056377154160563781542405638615939057387154340564031543305640215438056407159520574071544405641315958057413154530564221545205642115456056425154570564261548405645315483056452155070564761550605647515519056488149920554881552405649315525056494155350565041604705750315550056519155490565181555805652715557056526155630565321503605553215597056566155960565651560105657015602056571156050565741560605657515627056596156260565951563205660115631056600156440566131564305661215648056617151220556181565105662015650056619156520566211512405562015656056625151300556261566805663716180057636156720566411618505764115682056651156830566521569605666515697056666156980566671517005566615704056673000000000001570805667700000000000157090566780000000000015726056695157250566941573605670515737056706157470570321624705803215756057041152330560401576105704615238056045157650570501576405704915770057055157710570561579105707615790057075157970570821579605708115809057094163090580941581505710015816057101158180571031631805810315821057106158220571071585205713715851057136158760571611587705716215889057205163900582051589605721215895057211159100572660000000000015926057374159250573731593605738415937057385159530574081595205740715968057424159690574251597605743215975057431159870574431649305844415992057448159910574471600005745615999057455160070574631549405646316012057468154980564671601505747115502056471)
 (.leaf 1601805747416522058473160250574811653005848116027057483165330584841603405749016539058490160380574941603905749516072057528160710575271608005753616081057537160880575441608905754516100057556160990575551611505757116116057572161230575791561005657916128057584161290575851613705759316642058593161490576051665505860616154057610156420566111617205762816173057629161790576351617805763416181057637161800576361618805764416694058645162010576571568805665716202057658162030576591620505766115692056661162340576971623505769816237057700167400587001623805770116740058700162590580441576005704516265058050162640580491627305805800000000000163000580851629905808416302058087163030580881631405809916315058100163320581171633305811816354058139163530581381635805814316357058142163630581481636405814916367058152158670571521639705821216900059213164000582151690305921616429058371164280583701643605837816930059379164370583791693105938016445058387164460583881645205839400000000000164860584371598105743716526058477165250584761653505848616536058487165440584951603905749516566058517170630595161658105853216582058533165890585401658805853916594058545160900575461659705854816596058547166130585641661205856316622058573171210595741662705857816626058577166470585981714605959916676058627166770586281669505864617193059646166960586471719405964716698058649171960596491670005865117197059650167150586661721305966616727058687000000000001673405869416733058693)))
 (.node 2 (.node 1 (.leaf 1675005903000000000000167580590381625205803716771059051167700590501680005908017276060080168150590951681405909416825059105173020601061682905910916830059110168340591141683305911316842059122168430591231684805912816849059129168500591301684905912916874059154168750591551687905915916374058159168960592091689505920816899059212169000592131690605921916907059220169230593721692205937116928059377169290593781697405942716973059426169810594341698205943516988059441169870594401700605945916507058458170090594621651005846117012059465170130594661702705948017497060481170400594931751006049417050059503170490595021705805951116560058511170620595151656405851517065059518170640595171707705953017076059529170990595521710005955317118059571171190595721712905958217130059583171580596111666105861217178059631171770596301720005965317201059654172040596571767406065817215059668172160596691722105968616726058686172450600371724406003617251060043172520600441728706009116811059091172920600961729106009517318060122173170601211733006013416854059134173390601431733806014217346060150177870611491736606017000000000000174020603771740306037817410060385178510613851741606039117417060392174420604261744106042517448060432174490604331746706045116999059452174770604611792206146117485060469174860604701749606048017497060481175060604901750706049117526060510170560595091753606052017535060519175420605261798606152517553060537175540605381755806054217557060541)
 (.leaf 1758506056917115059568176210606051715305960617622060606171530596061764606063017645060629176590606431766006064417668060652176690606531767606066000000000000176790606631767806066217697061036000000000001770006103918143062039177310610931816806209317739061101172970601011777106113317772061134177890611511778806115017795061157173530601571780206116418240062165178050611671780606116817810061204000000000001781806121217819061213178250612191782606122017828061228000000000001784806138200000000000178540613881785306138717857061391178580613921789106143017892061431178930614321789406143317909061448179080614471791606145517917061456179210614601836706246017924061463179230614621792706146617926061465179320614711793306147217935061474179340614731794106148017942061481179700615091796906150817993061532184380625311800006153917555060539180090615481800806154718011061550184570625501801606155518461062554180230615621757706056118042061581175980605821805306159218054061593180570615961805806159718067061606180680616071807906161818080061619181000616391809906163818102061641181030616421813106168000000000000181360616850000000000018146062042000000000001815206204818151062047181640620890000000000018170062095181690620941817806210318179062104182010621261820206212718216062141177790611411821906214418218062143182270621521864806315318234062159182350621601825706221017815061209182620622151868306321618265062218182660622191827506223018274062229))
 (.node 1 (.leaf 1829006237518715063375182920623770000000000018303062389183040623901830806239400000000000183140624070000000000018324062417183230624161832706242018326062419183600624531835906245218382062475183810624741838706248018388062481184000624931795406149318407062500184060624991841406250718413062506184230625161797806151718434062527188540635261844606253918445062538184730625661847206256518475062568180290615681849406258718048061587184990625921850006259318509062602185100626031855706268018556062679185700630461856906304518587063092189960640921860106310618180062105186090631141818906211418613063118186120631171861406311918194062119186340631391821306213818642063147182230621481866106316618662063167186690631740000000000018676063209182560622091868006321318681063214186920632250000000000018700063233187010632341873706340918736063408187410634131874206341418748063420187490634211877006344219176064441187980634701837706247018809063481188100634821882206349418402062495188460635181842606251918848063520188490635211886506353718443062536188920635641889306356518900063572189010635731890306357518904063576189110635831849006258318928063600185060625991893406360618935063607189380636101893706360918963063635193690646341896806364018548062641189740636791897306367818980064044000000000001900706410319006064102190110641071942306510819016064112186070631121903006412619029064125190340641301862606313119042064138186320631371906406416019065064161)
 (.leaf 1907206416819073064169190800642060000000000019101064227186930632261911706435100000000000191430644080000000000019147064412191460644111915706442218751063423191630644281875606342819166064431187590634311918106444619602065446191900644551919106445619201064466187930634651921706448219218064483192420645071924106450619249064514188410635131925406451919255064520192700645351926906453419277064542188690635411927906454418871063543192940645591929306455819313064578189060635781931706458219318064583193410646061934206460719361064626189550636271937006463519369064634193860646831938706468419408065093000000000001942906511419019064115194320651171984706611819436065121190260641221945706514219870066141194620651471905106414719465065150190550641511948706517219077064173194950652060000000000019500065211190860642121950506521619506065217195230652341952406523519537065355000000000001955306539119554065392195740654181957306541719589065433195900654341959506543919174064439196070654512002406645019618065462200360664621962706547119626065470196290654731920806447319631065475196300654741963806548219218064483196660655101966506550919676065520196770655211967906552319259064524196800655241925906452419681065525192600645251971706556119296064561197250655692014306656919733065577197320655761973606558019315064580197430655871932206458719757065601197580656021975906560319758065602197740656181977506561919787065631193660646311980006567719380064677))))
 (.node 4 (.node 2 (.node 1 (.leaf 1980706568419808065685198270660981982606609719833066104202490671051983806610919839066110198430661141984406611519852066123198530661241985806612919444065129198640661351945106513619881066152194670651521988806615919889066160198960661671989706616819904066175194900651751990806617919494065179199100661810000000000019920066211199190662101992506621619926066217199430662341994406623519960066377000000000001996506638400000000000199670663861996606638519978066404195600654031998106640700000000000199860664121998506641119991066417195730654171999506642119578065422200000664262000106642720014066440204290674412002306644920437067449200370664632003606646220053066479196340654782005906648520060066486200790665052008006650620090066516200890665152011106653720110066536201170665432011606654220124066550197050655492015706658319739065583201700665961975306559720184066610201850666112020006662619782065626202020666282020106662720211066637000000000002021206667200000000000202150666752021406667420221066681206350676812023106704300000000000202410670970000000000020247067103202460671022025406711020255067111202730671292027406713020289067145207030681452029006714620704068146203020671582030306715920327067183000000000002033506720920334067208203440672181992606621720349067223203480672222035106722519934066225203530672271993606622720360067234203610672352037206735300000000000203850673890000000000020411067423208270684222044506745720444067456)
 (.leaf 2045306746520870068465204670674792046606747820471067483204720674842049306750520494067506205050675172050406751620508067520209250685202051406752620101066527205400675522054106755320572067584205710675832058006759220579067591205850675972058406759620601067613206020676142060806762020195066621206110676232019706662320618067630202040666302063206767821048068679206670681092066806811020696068138202820671382070006814220701068143207090681512111906915120727068169207280681702075806821420757068213207650682212076606822220780068236207810682372078706835000000000000207920683550000000000020794068376000000000002080306838500000000000208060683880000000000020829068424208280684232083806843320839068434208430684382084406843920876068471208750684702088806848320889068484208970684922048006749220898068493204810674932090906850420910068505209590685542096006855520973068568205560675682098106857620980068575209880685832057106758320992068587205760675882101906861421020068615210410686722104006867121047068678210480686792107606910821504070109210790691112108006911221082069114210810691132108606911820675068117210890691212109006912221095069127210960691282110506913721532070137211150691472111406914621128069160207190681612114506917720735068177211600691920000000000021162069194000000000002117806921721177069216211840692232076706822321190069229207730682292119606923521197069236212060693450000000000021207069346000000000002121806935700000000000))
 (.node 1 (.leaf 2124106940921240069408212470694152082106841621254069422212530694212126106942921703070430212650694332170707043421277069445208490684442128206945021283069451213080694762130706947521310069478213090694772131406948221315069483213210694892132206949021328069496209010684962133606950421337069505213530695212135206952021368069536209400685352138206955020956068551213840695522095606855121387069555209600685552141706958521418069586214270695952142606959421430069598214310695992144206961021441069609214570696252189907062621469069673214680696722147906968300000000000215030701082150207010721520070125210930691252153007013521102069134215360701412153707014221543070148211160691482154707015221548070153215540701592155507016021569070174211420691742158407018921157069189215940702032159307020221597070206211660692052160107021022041071209216060702152160507021421625070234216260702352163807034300000000000216520703570000000000021676070403216750704022167807040521236069404216990704262169807042521714070441217150704422172307045021724070451217290704562128806945621740070467212980694662175507048222204071482217690704960000000000021794070521217930705202180007052721799070526218050705322180407053121812070539213710695392182007054721380069548218420705692140206957021847070574214060695742185507058221854070581218730706002187407060121878070605214370696052188707061422337071615218940706212189307062021904070631000000000002191107067221910070671)
 (.leaf 2191507067621916070677219430711062150007010521959071122215180701232198207114521981071144219960711592244407215922004071167215620701672201207117522013071176220320711950000000000022035071203220340712022204207121022041071209220470712152204607121422054071222216120702212206807123622069071237220740712420000000000022124071402216750704022213507141321685070412221380714162213907141722158071436226090724372218207146022181071459221840714622263407246222196071474217460704732220207148022203071481222150714932221607149422220071498222210714992222307150100000000000222340715122223307151122237071515226860725142224107151922240071518222660715442226507154322270071548222690715472230907158722310071588223190715972187107059822328071606227780726062234107161921891070618223460716242234707162522365071672223640716712237407168100000000000223920721072239307210822394072109223950721102241207212722413072128224150721302196807113122436072151224370721522245407216922455072170224560721712245507217022465072180224660721812246707218222468072183224730721882247407218922479072194224800721952250007222022052071220225030722232250207222222512072232220630712312251707223722518072238225200722400000000000022538072353000000000002254207235722543072358225590723872256007238822595072423225940724222260307243122153071431226120724402216207144022619072447221690714472263707246522636072464226400724682264107246922647072475231060734752265407248222655072483)))
 (.node 2 (.node 1 (.leaf 2266507249300000000000226710724992222107149922676072504000000000002269107251922690072518227090725372270807253622723072551227220725502272807255622729072557227310725592228207156022745072573227440725722275507258323214073583227630725912231407159222773072601227740726022278207261022783072611228080726360000000000022816072672228150726712282207267822823072679228410731082284207310922845073112228460731132285207311922403072118228570731242241007212522870073137224230721382289807316522897073164229040731712290507317222934073203229330732022293807320722937073206229440732132294307321222949073218224970722172295407322322953073222229580732272250707222722985073344229840733432301407338323013073382230260733952302507339423029073398234860743972304107341023040073409230440734132258407241223048073417230490734182305007341923509074420230590734282351607442723063073432226040724322306807343723527074438230740734432261507244323082073451230810734502308707345623088073457231090734782356607447723113073482231140734832312507349422666072494231520735212315107352023164073533231630735322316507353422706072534231670735362270707253523175073544231740735432317707354622717072545232100735792320907357823218073587227590725872322407359323223073592232270735962322807359723247073616232460736152325107362023709074620232580736272325707362623263073632232640736332328007367423738074674232960741072329507410623305074116233040741152331607412723317074128)
 (.leaf 2332307413423324074135233280741392287207313923339074150233400741512335907417023358074169233640741752336507417623368074179233690741802338907420323388074202233950742092339407420823398074212229430732122341707423123416074230234280742422342907424323433074247234340742482345207435722997073358234600743710000000000023469074380234680743792349007440123952075401234950744062303607340523506074417239680754172351307442423512074423235290744402352807443923536074447239980754472353907445023081073450235480744592308907345823555074466235540744652357107448223114073483235830744942358207449323592074503231350735042364407455523643074554236510745622365207456323673074584232160735852369407460523236073605237200746312372107463223741074677000000000002375707510723756075106237620751122376307511323778075128237790751292380707515723808075158238310751812337107418223841075191238420751922386107521523860075214238660752202432807622123881075235243430762362388207523623883075237238930752472389407524823901075345000000000002390207534600000000000239100753552436907635523915075360234550743602392607537523925075374239300753792346807437923939075388239380753872396207541123963075412239860754352398707543623996075445239950754442400407545324463076453240110754602401007545924017075466235540744652403307548224034075483240660755150000000000024089075538236270745382409007553923628074539240960755452409507554424106075555241050755542411007555923648074559))
 (.node 1 (.leaf 2411707556623656074567241320755812413107558024169075618246280766182417707562624176075625241820756312372107463224189075638241900756392419807567200000000000242200761122376307511324228076120242270761192423807613023781075131242470761392378907513924250076142242510761432425307614500000000000242600761522380207515224263076155242640761562427307616523815075165242800761722427907617124287076179242880761802431207620524311076204243290762222433007622324334076227247870772272433907623224792077232243480762412434907624224351076244248040772442436207634400000000000243680763540000000000024372076358248180773592438307637324382076372243960763862439507638524405076395239460753952440707639723948075397244100764002441107640124419076409244200764102443307642324880077422244430764332444207643224450076440248980774402446007645024459076449244690764592446807645824485076475244840764742448807647824487076477244930764832403407548324499076489240400754892450907649924508076498245140765042451507650524517076507245180765082452207651200000000000245260765160000000000024573076563245740765642458907657924130075579245930765832459207658224604076594250510775932460707659724148075597246130766032415507560424617076607241580756072463007662024629076619246370766272463607662624648076638246490766392465507664524656076646246680771082511107810824686077126246850771252469007713024691077131247090771492515307815024715077155247160771562472007716024268076160)
 (.leaf 2472707716724726077166247290771692427607616824736077176247370771772475307719324301076193247560771962475707719724775077215247740772142477707721725220078217247800772202522407822124785077225252270782242478607722625229078226247890772292479007723024795077235252380782352483207737424831077373248370773792438807637824841077383243930763832484307738524394076384248640774062486307740524876077418248770774192488807743025328078429249360774782493507747724942077484249410774832494707748925388078489249660775082451907650924975077517000000000002498007752224532076522249850775272453707652724994077536249930775352499807754024999077541250060775482455807654825016077558250150775572502707756924579076569250480775902460107659125069077611255100786112507707761925517078618250900776322509107763325108078105000000000002511307811000000000000251180781152511907811625125078122251240781212515107814825152078149251760781732561807917325190078187251910781882520207819925203078200252120782092521107820825241078238256830792382526507836625266078367253070784082486507740725309078410248690774112531207841325311078412253370784382533807843925344078445257780794442534707844825348078449253520784532578607945225355078456257900794562536207846325796079462253810784822494107748325403078504249610775032540807850924968077510254240785252542307852425435078536254340785352546207856325897079563254810785822548207858325501078602259350796012550607860725942079608)))))
 (.node 8 (.node 4 (.node 2 (.node 1 (.leaf 2550707860825943079609255270786282508707762925538078639259730796392555907911425993080115255630791182556207911725573079128260060801282557907913426013080135255860791412558707914225589079144251470781442559507915025153078150256010791562603508015725608079163251660781632562307917825622079177256240791792518307818025633079188256340791892566307921826096080218256760792310000000000025697079363000000000002572007938625721079387257240793902572307938925730079396252940783952573307939925734079400257520794182531807841925760079426261860804252576407943025763079429257690794352619608043525773079439257740794402578907945526217080456258050794712580407947025808079474253720784732581207947825377078478258290794952539407849525835079501258340795002584707951325412078513258590795252585807952425870079536258690795352587607954200000000000258780795442587907954525882079548258810795472588907955525454078555258910795572631808055725894079560263220805612590007956625901079567259150795812548007858125927079593259260795922593007959625931079597259400796062636808060725958079624259570796232596307962926390080629259710796372597007963626011080133260120801342602308014526024080146260320801542603308015526060080182260610801832606908019125636079191260790802012564707920226088080210260870802092609208021426519081214260930802152652008121526094080216265200812152609708021926525081220261030802250000000000026127080366265630813652614208038126141080380)
 (.leaf 2614808038726149080388261500803892614908038826165080404261660804052617608041525749079415261810804202618208042126194080433261930804322621008044926209080448262200804592665808146026221080460266580814602622208046126659081461262250804642666208146426226080465266620814642622708046626664081466262410804802667808148026245080484266820814842624608048526682081484262530804922582507949126270080509262690805082627108051000000000000262760805152584907951526278080517262790805182629108053025864079530262940805332586707953326302080541267390815412630808054725880079546263390805782591107957726363080602267990816012636708060626805081607263870806262682408162626393080632263940806332642408111926859082120264250811202685908212026427081122264280811232644008113526441081136264490811442688408214526457081152264580811532646208115726463081158264670811622690208216326471081166264700811652647608117126475081170264980811932607108019326518081213269530822142654308124426542081243265650813672656408136626568081370261300803692657608137826575081377265920813942702808239426595081397265940813962660608140826607081409266140814162705108241726628081430266270814292665008145226651081453266540814560000000000026669081471266680814702667708147926678081480266960814982625908049826704081506267030815052672008152226282080521267300815322672908153126736081538271730825392674308154526744081546267520815542631408055326772081574263340805732678008158226781081583))
 (.node 1 (.leaf 2678408158626785081587267890815912635208059126791081593267920815942680908161126808081610268180816202681708161926822081624272590826252683408163626833081635268370816392683808164026841081646000000000002688808214927317083149269140821752691308217426926082187273550831872693308219426499081194269340821952650008119526935082196265010811962693908220026938082199269420822032650808120326946082207273740832062697008223100000000000269770822472697808224826980082250265490812502698208225200000000000270020823682700108236727006082372265700813722701808238427019082385270260823922702708239327031082397274610833972705508242127485083421270750824412750508344127078082444270790824452711308247927114082480271170824832711808248427125082491266880814902712908249527559083495271530825192671708151927158082524275890835252716008252627161082527271620825282716108252727184082550271830825492718908255527190082556271970825632719808256427206082572267690815712721408258027215082581272210825872722208258827247082613272460826122724908261526813081615272730826392727408264027283083115000000000002729908313127729084131273030831352730408313627329083161000000000002733708316927336083168273410831732734008317227345083177273440831762734808318027349083181273790832112738008321227431083367274300833662744408338027014082380274450833812701508238127465083401278960844022746608340227896084402274710834072747008340627475083411274760834122749008342627920084426)
 (.leaf 2752608346227956084462275340834702753308346927538083474275370834732755208348827551083487275660835022713508250127569083505271390825052758008351628011084517275960835322802608453227598083534280270845332761408355027613083549276230835592762408356027644083580272150825812766008359627230082596276620835982723108259727664083600276630835992767008360628101084607276820836182811108461727687083623281180846242769708363328127084633277130841150000000000027734084136277350841372775908416127760084162277870841892821308518927797084199282240852002782308422527394083226278260842280000000000027836084246000000000002785008435627849084355278540843602785308435927918084424283370854242792608443227495083431279310844372835008543727940084446279390844452795008445628370085457279510844572837008545727952084458283710854582795308445928372085459279620844682796108446727973084479283910854782797608448200000000000279810844872755008348627984084490279830844892800208450828421085508280050845112842408551128014084520280130845192802108452727591083527280290845352802808453428036084542276070835432804008454627610083546280460845522846408555128057084563280580845642806808457428067084573280700845762848908557628099084605285190856062810508461128104084610281450851212856408612028151085127281500851262816708514328168085144281710851472774508414728180085156281810851572818608516228606086162281950851712819608517228214085190282130851892822608520228225085201)))
 (.node 2 (.node 1 (.leaf 2822908520527803084205282330852092823208520828245085221282460852222828308537028703086370282850853722828408537128287085374282880853752829208537927873084379282950853822829608538328299085386278800843862830208538928303085390283060853932830708539428316085403287350864022832008540728319085406283250854122874608641328334085421287550864222836008544728359085446283640854512878508645228369085456287900864572837308546028793086460283770854640000000000028407085494284060854932841308550028412085499284250855122883908651128451085538284500855372845708554428038084544284580855452803808454428461085548000000000002846808555528882086554284810855682848008556728492085579289070865792850208558928503085590285110855982809108459728515085602285160856032852208560928521085608285250856122894008661228550085637000000000002855608611200000000000285630861192897808711928571086127289860871272857708613328576086132285990861552860008615628603086159286020861582861808617428619086175286400861962905508719628657086213286580862142867208622828253085229286950863622869408636128698086365286970863642872008638728721086388287280863952872908639628736086403287350864022874108640829152087407287450864122874608641328763086430291740874302877208643928351085438287840864512919308745228786086453291950874542878908645629198087457287990864712879808647028802086474288010864732880908648129214087481288130864852881208648428819086491292240874912882708649928826086498)
 (.leaf 2883108650328830086502288350865072924008750728874086546000000000002888608655829291087558288920865642889308656528910086582000000000002891508658700000000000289300866022933608760328936086608289350866072894308661528942086614289520866242895308662528961086633289600866322898808712928987087128290000871412900108714229015087156290160871572901808715929017087158290260871672902508716629034087175294360881742905808719929057087198291020873570000000000029118087373291170873722912708738229529088382291340873892913508739029153087408291520874072916008741529561088414291790874382917808743729180087439287710864382918308744229184087443291860874452877708644429191087450291920874512923508750229234087501292420875092924108750829254087521292550875222925908752629258087525292630875302926408753129265087532296630885322926708753429664088533292750875422927408754129282087549292830875502929908756629697088566293160875832931708758429323087590289180865902933508760229336087603293410876082934008760729353087620293520876192938608812429387088125293960881342939708813529414088152290110871522941708815529418088156294450881832944608818429461088199294600881982946608820429467088205294840882222988108922229506088359295050883582950808836129106087361295130883662911108736629515088368291130873682953208838500000000000295330883860000000000029549088402299430894012955808841129557088410295660884190000000000029574088436295730884352958908845129990089452))
 (.node 1 (.leaf 2960508847400000000000296090884783000908947929610088479300100894802961908848829618088487296260884952962508849429647088516292480875152964808851729249087516296500885192925208751929669088538296680885372968708855629688088557296920885613009108956129699088568297000885692970208857100000000000297050885743010408957429708088577000000000002971008857930110089580297290885982972808859729732088601301320896022976108863029760088629297930891342939708813529797089138294010881392980108914229404088142298050891462940908814729813089154298140891552982708916830227090168298360891773023609017729839089180302390901802985908920029858089199298640892052986508920629875089216294770882152987908922030279090220298950892360000000000029906089363303030903622991408937129913089370299180893752991908937629933089391299340893922995608941429957089415299830894452958308844529994089464000000000003001508948530014089484300420895123004108951130046089516300450895153005208952230449090523300580895283045409052830065089535300640895343007508954529675088544300780895480000000000030092089562000000000003010208957200000000000301080895780000000000030112089582301110895813011508958500000000000301210895913012208959230124089594301250895953014608961629748088617301790901203017809011930191090132297910891323019509013629795089136302010901423020209014330251090192306470911933025909020030258090199302760902173067109121730285090226000000000003030509036430304090363)
 (.leaf 3031709037629920089377303310903913033209039230336090396299380893963035309041330354090414303730904413037209044030399090473300020894723040409047830405090479304130904873041209048630434090508300380895083045509052930454090528304660905400000000000030479090553304780905523048709056130871091562304980905720000000000030509090583305080905823051709059130518090592305190905933012308959330540090614301430896133054409061830545090619305470906213015108962130550090624301540896243056109064430560090643305680911143056709111330572091118305710911173058109112730580091126306040911503021009015130612091158306130911593062009116631007092166306360911823063709118330641091187306400911863065009119630649091195306570912033065809120430667091213302720902133067009121630669091215306960913633069509136230737091407311250924073074109141130742091412307570914433037509044330760091446307610914473076409145030765091451307750914663039209046630779091470303960904703079209148330408090482308130915043042909050330841091532304570905313084209153330459090533308430915343045909053330844091535304610905353084709153830846091537308560915470000000000030864091555000000000003088109157200000000000308840915753088509157630896091587000000000003090109159230518090592309090916003091009160130919091610305370906113092009161130537090611309310916223131409262330936091627305540906283096509212430579091125309750921343097609213530987092146309880921473099109215031373093151))))
 (.node 4 (.node 2 (.node 1 (.leaf 3099609215530997092156310170921763101809217731049092208310480922073106209222100000000000310800923583107909235731087092365310860923643109309237131092092370311010923813110009238031115092397311160923983111909240131120092402311450924473114609244831158092467315320934683116509247431539093475311680924773078709147831170092479307880914793117109248030789091480311740924833079109148231177092486307940914853118109249030798091489312030925123082209151331217092526312160925253123609254500000000000312420925513124109255031246092555000000000003125209256131251092560312560925650000000000031272092581000000000003127509258400000000000312770925860000000000031287092596312880925973129009259931291092600312940926033129509260431300092609312990926083130709261631308092617313230926433169809364331335093113309530921123134409312200000000000313500931283096909212831360093138313590931373136409314231365093143313920931703176809417131410093188314090931873141309319131414093192314280932063104709220631429093207310470922063146309336231084092362314670933660000000000031487093395314860933943149509340331121092403314990934073150009340831507093415000000000003152009344931519093448315220934513152309345231527093463000000000003154509348131172092481315460934823117309248231553093489311790924883155609349231183092492315660935023119309250231571093507311980925073159109352731590093526316150935513124109255031647093583000000000003165009358600000000000)
 (.leaf 3165109358700000000000316530935890000000000031659093595316600935963168309361932049094619317090941123170809411131765094168321270951683177109417432134095175317790941823177809418131786094189317850941883179309419632154095195318000942033180109420431809094212321710952123181309421631814094217318290943543219209535531841094366000000000003184909438432212095385318890944533152409345331899094469318980944683192309449331557093493319270944973156009349631928094498322910954983193309450331567093503319510945213195209452231953094523315870935233195909452931958094528319660945363196709453731969094539319680945383197209454200000000000319760945463197509454531984094554319850945553198909455900000000000319990945693200009457032015094585000000000003201909458900000000000320210945910000000000032031094601316660936023203409460432398095605320420946123204309461332045094615320440946143206609464632067094647320750951163207409511532089095130317270941303209809513932452096140321040951453174309414632112095153321130951543211709515832471096159321220951633212309516432132095173321330951743213609517732490096178321470951883178409418732165095206325190962073216709520832166095207321820953453218109534432185095348325390963483220309536600000000000322230954013222209540032231095409322320954103223509541332584096413322450954453224409544432265095472322660954733226909547632268095475322880954953192509449532301095508326550965083230409551131941094511))
 (.node 1 (.leaf 3230809551532307095514323300955373268409653732342095549323410955483235609556332355095562323580955650000000000032366095573323650955723236909557632006094576323740955810000000000032384095591323850955923239009559732391095598324110956183204909461932438096126320850951263244909613732096095137324530961413280009714032458096146321050951463246009614832461096149324700961583247109615932473096161324740961623248609617432835097175324940961823284209718232499096187321460951873251309620132860097200325440963533254309635232551096360328990973603255209636132899097360325740964033292409740432577096406329260974063260609645232971097453326100964563261109645732614096467329780974683262909648232628096481326340964873263309648632647096500326460964993266509651832666096519326700965233267109652432674096527326750965283269609654932695096548327010965543234809555532730096583323750955823275409660732753096606327710971110000000000032777097117327760971163278209712200000000000327840971243314709812432792097132327930971333281209715232813097153328450971853284409718432850097190328510971913285309719332506096194328640972043286509720532870097210332320982093287309721300000000000328870973483288609734732910097387000000000003291509739200000000000329190973993291809739832929097409332850984093293309741333288098412329440974243258809642432948097428329490974293296409744632600096446329670974493296809745032970097452333280984533297609745800000000000)
 (.leaf 3298209747200000000000329860974763298509747533024097514330230975133302709751733028097518330320975223303309752333058097548330570975473306609755633067097557330740975640000000000033078097568334390985683308009757000000000000330980975880000000000033110097600327480966013311709760733116097606331210976113312009761033126097616331250976153313409811100000000000331360981133277209711233150098127331490981263315909813632795097135331800981573354309915833189098166335510991663319209816933554099169332110981883321009818733275098399332740983983331209843700000000000333170984423331809844333344098473000000000003335209848132991097481333600984893335909848833364098493333650984943336709849633366098495333690984983336809849733377098506333760985053338309851233384098513333980985273339909852833414098543334130985423342309855233779099551334360985653343709856633442098571000000000003345409858333453098582334600985893346109859033463098592334640985933351509913000000000000335170991323315509813233524099139335250991403352709914233880100141335290991443316609814333540099155335410991563355009916533905100166335550991703390910017033559099174339131001743358209919733581099196335900992053359109920633594099209339481002093359809934200000000000336080993523396310035233610099354336090993533361609936000000000000336190993760000000000033627099393000000000003363809940433639099405336470994150000000000033662099430333060984313366809943633667099435)))
 (.node 2 (.node 1 (.leaf 3367709944533678099446336860994543368709945533691099459000000000003370609947833705099477337140994860000000000033730099502337290995013374609951833747099519337520995243375309952533783099555337840995563379009956233433098562337920995643379309956533828099600000000000003384509963900000000000338561001173420210111633860100121338611001223386410012533510099125338661001270000000000033885100146338841001453388810014933889100150338941001553389510015633896100157338971001583390010016133901100162339111001723391210017333915100176339161001773391910018033565099180339321001933428010119433939100200335850992003394210020334290101204339541003433430110134333969100358339701003593399210040500000000000340001004163364809941634002100418340011004173400510042134006100422340131004293401210042834018100434340171004333402410044034023100439340531004753405210047434061100483340601004823408210050434424101503340871005093408810051034090100512340911005133413110055333781099553341441005660000000000034149100571000000000003416310058534164100586341731005953451610159534183100607000000000003418710061134186100610341921006390000000000034272101186346091021853431110135334310101352343141013563431510135734341101413000000000003437310144534372101444343761014483437710144934411101490344101014893441310149234748102492344181014973441710149634458101537341151005373447210155134471101550344761015553413410055634499101578000000000003452610161134855102611)
 (.leaf 3454110211734540102116345461021223420810112234556102132342181011323455910213534560102136345681021443456710214334578102154349081031553458110215734582102158346051021813493310318034611102187346101021863463710234234636102341346691024023499610340234682102416346811024153468810242200000000000346891024233435110142334711102445000000000003471610245034717102451347211024553438310145534724102468000000000003473810248234402101481347661025103443210151134795102539000000000003480010254400000000000348071025513480610255034817102561344811015603482010256400000000000348241025683448910156834825102569344891015683484110258534842102586348451025893484610259034861102639000000000003486410264235198103642348661031130000000000034882103129352151041293489110313834892103139348951031423456610214234901103148349021031493491110315834912103159349201031673492110316834923103170349241031713492910317634600102176349301031773493110317834944103191346151021913495810320500000000000349661033420000000000034981103357349821033583501110341835340104417350201034273469310242735024103431353541044313503610344335366104443350471034543504610345335056103472350551034713506510348134736102480350791034953540910449535092103508350911035073510010351634773102517351021035183477510251935103103519347761025203510410352034777102521351121035283478510252935113103529347861025303512110353735122103538351331035493513210354835144103560348161025603514910356534822102566))
 (.node 1 (.leaf 3516010357600000000000351621035783516310357935168103584354981045843517910359500000000000351971036410000000000035204104118352031041173521110412500000000000352161041300000000000035233104147355641051483524110415534908103155352501041643558110516535277104191352761041903528710420135288104202353091043533497610335235313104357349821033583532610440200000000000353481044253534910442635350104427000000000003535610443335685105433353631044403536410444135367104444353661044433537010444735699105447354021044883507110348735410104496357421054963541910450535418104504354241045103542510451135428104514350991035153543010451635101103517354381045243510810352435444104530351141035303546510455135464104550354711045573580310555735474104560354751045613549010457600000000000355181046120000000000035521104615355201046143552810463935527104638355461051303588510613035548105132358861061313556810515235239104153356041051883560310518735617105201359571062023562010520435621105205356351053503530510434935706105454357071054553571610547035715105469357211054753538810447435728105482353951044813573110548535730105484357331054873540110448735751105505361041065043576710552135435104521357681055223576910552335771105525354391045253577210552635440104526357821055360000000000035786105540357851055393579010554435791105545358011055553580010555435835105589355041045903583910559335840105594358431055970000000000035855105615355201046143586410563735526104637)
 (.leaf 3587510612035874106119358781061233623010712435889106134362401071343589510614035556105140358991061443589810614335909106154355711051553591110615635912106157359181061633591910616435923106168362741071683592810617336280107174359331061783628410717835946106191359451061903594910619436299107193359531061983561410519835956106201359571062023598710636900000000000359901063720000000000036022106421000000000003602310642200000000000360431064423604210644136054106453360531064523606010645936059106458360671064673606610646636074106474360731064733609510649535740105494360981064983609710649736101106501357471055013610510650536429107504361301065303612910652936133106533357801055343613910653935785105539361441065443614510654536147106547357941055483615310655336152106552361631065633648910756436172106572358171055713617710657736503107578361861065863651110758636198106598358441055983622310711735871106116362331071273655510812736248107142358971061423625310714736575108147362571071513657910815136285107179366071081793631210720600000000000363151073470000000000036335107377359951063773635410742700000000000363631074383668110843836374107449366921084493640210747736401107476364041074793640510748036414107489360891064893641610749136091106491364321075073675110850836434107509364331075083644010751536439107514364481075233612310652336485107560364861075613650010757536818108575365281076133684510861336542107639368661086403657810815036579108151)))))))
 (.node 32 (.node 16 (.node 8 (.node 4 (.node 2 (.node 1 (.leaf 3658910816136913109162365951081673691910916836621108193366201081923662710819936950109199366291082013695310920236633108205369571092063665610837400000000000366771084343667810843536698108455363811074563670110845836702108459367121084690000000000036761108518364421075173676310852036444107519367771085340000000000036788108545000000000003679310855036792108549367981085553679910855636827108584371641095853683710859436836108593368481086163718310961636873109122368721091213689110914037224110139369001091493690110915036910109159369111091603692710917636928109177369321091813693110918036941109190369401091893694910919837283110198369541092033695510920436971109358366411083593697810936536647108365369821093690000000000036992109379366621083803701210943337011109432370181094390000000000037021109442373481104423702410944537352110446370311094523703010945137037109458373651104593706310948436728108485370681094893706710948837071109492367361084933707510949636740108497370771094983740511049937108109529000000000003711110953200000000000371231095443712410954537138109559371391095603714510956636809108566371531095743715410957537166109587371671095883717510959637502110596371761095973750311059737195109633000000000003720411011937203110118372111101263687810912737221110136375471111363722611014137225110140372301101453723111014637240110155372411101563728211019737608111197372951103493729411034837315110369373161103703732311037737650111377)
 (.leaf 3734611044000000000000373711104650000000000037379110473373781104723738411047837383110477373961104903771211148937410110504374091105033741311050737730111507374221105163773911151637439110533371121095333744311053700000000000374531105473745411054837460110554000000000003746211055637780111557374711105653747211056637476110570374771105713751811062800000000000375211106313752011063037525110635000000000003753311112200000000000375431111323754211113137566111155378771121563757911116837889112168375841111733789511217437590111179379001121793760111119037600111189376121112013792211220137621111348376201113473762311135037622111349376281113553762711135437632111359376331113603764011136737641111368376591114363766011143737678111455376771114543768411146137367110461376891114663769011146737697111474373811104753772111149837404110498377311115083773011150737757111534374401105343776611154337767111544378041115813780511158237810111587381251125883784511212400000000000378601121393785911213837876112155378771121563788211216137883112162378961121753820911317537906112185382181131843791111219038223113189379161121953823011319637931112347379301123463794011235600000000000379541123703795511237137975112438376621114393797811244137664111441380021124650000000000038016112479377021114793802111248438333113484380311124943803011249338050112513380511125143805611251938055112518380651125280000000000038081112544380821125453810411256738105112568))
 (.node 1 (.leaf 3810811257138420113571381231125863812411258738128112591384411135923812911259238130112593381621131280000000000038175113141384841141413818111314738490114147381841131503818511315138189113155384991141563820411317038205113171382171131833852611418338232113198385421141993827111337637960112376382781133830000000000038330113481380181124813833611348738335113486383451134963866711449638349113500383501135013835311350438352113503383821135333870411453338389113540383881135393839511354638082112545383991135503872211455138404113555384051135563841811356938419113570384231135743842411357538430113581384311135823843711358838438113589384501136010000000000038468114125000000000003848511414238484114141385041141613850511416238508114165385091141663851911417638834115176385311141883884511518738535114192388511151933853611419338852115194385391141963885411519638546114341000000000003855611435138247113352385691143643888211536438572114367385731143683857911437438269113374385871143823827711338238593114388000000000003860211443138923115431386061144353828311343438610114439386111144403861411444338615114444386291144583862811445738638114467386391144683864211447138320113471386461144753896711547538647114476389681154763865211448100000000000386631144923866211449138671114500386721145013868211451139002115510386841145133836111351238721114550390431155513873211456138733114562387551145843907611558438772114601000000000003879511513738480114137)
 (.leaf 3879711513938481114138388131151553881411515638828115170388291151713883611517839151116177388371151793915311617938849115191391651161913886411534638863115345388691153513918311635138871115353391861163543887511535739189116357388781153603919311636138881115363391951163633888311536539197116365388901153723857711437238896115378388951153773893411544238935115443389541154623895511546338960115468386391144683897311548138974115482389791154873897811548638985115493389841154923898611549439303116493390161155240000000000039033115541390321155403903811554639039115547390451155533936411655439052115560393711165613908011558839081115589390941156020000000000039108116134391071161333911811614439435117145391381161643945411716439143116169394601171703915611618239472117182391751163433917411634239185116353391861163543919011635839507117359392001163683920111636939211116379392101163783924411643439576117434392511164413925211644239262116452395941174523928611647639618117476393081164983899111549939323116513393221165123933211652239014115522393351165253933611652639343116533393441165343937211656239373116563393761165663937711656739379116569397111175693938411657439716117574394051165953940611659639431117141397611181413944011715039124116150394481171583944911715939475117185398051181853948611719639817118197395291173813952811738039533117385398631183853953611738839220116388395421173940000000000039547117404398811184043955811741500000000000)))
 (.node 2 (.node 1 (.leaf 3956311742100000000000395651174230000000000039580117438000000000003958411744239585117443395901174483925911644939591117449395921174503960411746239603117461396211174793995611847939622117480399581184813962711748539626117484396351174933963411749239645117503399801185033964811750639982118505396701175280000000000039676117534000000000003967811753639345116535396851175433968611754439717117575397161175743972911758740064118587397391175973940611659639743117601397441176023976311814339433117143397661181463943611714639781118161397821181623980811818840146119188398131181934015111919339820118342401571193413982411834639825118347398281183503982911835139839118361401771193613984511836739846118368398701183923954011739239871118393395411173933987911840240218119402398821184054022111940539883118406402221194063988411840740223119407399271184503959311745139936118459396011174593994911847239613117471399741184973964011749839977118500399781185013998711851039986118509399991185223966311752140008118531000000000004001011853339675117533400181185410000000000040060118583403991195834009411913639756118136401151191574045312015740131119173404691201734017611936040508120360401981193824019711938140203119387398661183884021111939539874118396402131193970000000000040224119408402231194074022511940940557120409402291194134056212041440233119417402321194164024311942739905118428402461194303990711843040252119436399131184364025911944339921118444)
 (.leaf 4027711946140276119460402841194683994411846740288119472399481184714030411948839964118487403091194934030811949240331119515403301195144033311951740332119516403421195264067212052640360119544403591195434036411954840365119549403851195694071512056940395119579403961195804043412013840760121138404351201394076112113940441120145401031191454044412014800000000000404591201634046012016440465120169404661201704047012017400000000000404791201900000000000040481120192000000000004048512019640154119196405021203544082012135440521120373401891193734052312037540190119374405241203764019111937540526120378401931193774052912038140528120380405351203874053612038840537120389402051193894053812039040539120391405911204434026011944440611120465406121204664063012048440629120483406431204974064212049640649120503409641215024065412050840970121508406571205114065612051040666120520409821215204066912052340985121523406801205344068112053540693120547406941205484069712055140366119550407011205554101812155640712120566407131205674074412059840745120599407621211404107812214040785121163411021221644079312117700000000000408191213534113412235440828121362408271213614083212136640514120366408331213674051512036740835121369405181203704084412137840525120377408471213814052812038040853121387408541213884086512139940547120399408681214024055012040240874121408408751214094088112141540880121414408871214210000000000040891121425000000000004089612143040895121429))
 (.node 1 (.leaf 4090212143640584120436409171214514059912045140924121462409231214614093812147640939121477409411214794094012147840958121496412711224954096612150440965121503409731215114097212151041023121561413371225614103912157741038121576410431215814072812058241052121590410531215914105612159441055121593410601215984106112159941081122143407651211434109112215340775121153410981221604141412316141099122161411001221624114112236141140122360411521223724083812137241173122393411741223944117712239740864121398412221224424122312244341228122448409141214484124212246641561123466412501224744125112247541255122479412541224784126012248441580123485412881225124128712251141293122517416131235184129412251841613123518413001225244129912252341310122534416291235344132712255141646123551413351225594165312355841354122578413551225794137812260241379122603414101231574172712415741420123167000000000004144612334741760124347414481233494176212434941451123352414521233534146112336241460123361414701233714115112237141475123376414741233754149412339541495123396415131234144119412241441518123419415191234204152112342241520123421415331234344153212343341543123444418571244454155412345541555123456415651234704156612347141585123490415841234894158912349441590123495416101235154192312451641614123519419261245194162212352741935124528416301235354162912353441641123546416421235474164912355441960124553416551235604196712456041661123566416621235674166312356841344122568)
 (.leaf 4168512359041686123591416891235944168812359341694123599416951236004170312413241702124131417171241474171812414841736124194000000000004175012433741436123337417551243424175612434341758124345417571243444176412435141765124352417741243614177312436041787124374417861243734179312438041794124381418111243984181212439941820124407418191244064182612441341825124412418331244204183412442141835124422415201234214184812443641536123437418591244474186012444841865124453418661244544187212446541559123464418771244704187812447141899124492422001254914191212450541911124504419141245074160212350741931124524419301245234193612452941935124528419491245424225112554241963124556422651255564197112456442273125564419791245724166712357241986124579419871245804199912459241687123592420201251424201912514142021125143423201261434202512514742026125148420271251494171912414942035125157420361251584204212516400000000000420471251974204812519842051125334420501253334205412533742357126337420591253424206012534342072125355423751263554208112536442384126364420831253664238512636542108125391418041243914211412539742115125398421301254134212912541242145125431000000000004215412544041853124441421691254554217012545642177125468421781254694218312547442182125473421891254804218812547942192125483421931254844221212550341909124502422231255144222412551542230125521425331265224224112553242242125533422461255374254812653742252125543422511255424225912555042258125549))))
 (.node 4 (.node 2 (.node 1 (.leaf 4226412555542566126555422871255784228812557942291125582419891245824230412559542606126595423051255964260712659642313126133000000000004232212614542321126144423421261650000000000042343126195000000000004235812633842357126337423631263430000000000042365126345423641263444237812635842676127359423921263724208912537242408126388427061273894241212639242709127392424171263974211512539842422126402424231264034242612640642122125405424291264094212612540942432126412424311264114243612641642133125416424381264184213512541842445126425427421274254245212643542749127435424601264434275712744342463126446424641264474246812645142469126452424991264884249812648742501126490427941274904250512649442506126495425101264994250912649842521126510000000000004254112653042835127531425491265384284312753942550126539428431275394256012654942559126548425821265714258312657242587126576425881265774259012657942288125579425971265864229412558542610126599000000000004262012714442912128143426271271514232912615242649127332426481273314266112734442660127343426751273584267612735942677127360426781273614268312736642386126366426841273674238712636742693127376423951263754269412737742397126377426951273784239812637842703127386427041273874271412739742715127398427221274054242412640442774127460000000000004278812748442789127485427901274864278912748542796127492430921284924279812749443094128494428001274964309712849742803127499430981284984281012750643105128505)
 (.leaf 4282612752243123128523428341275304313112853142839127535431351285354284912754542848127544428571275534256312655242871127567425781265674287412757043170128570428751275714258312657242890127586425961265854289812759442899127595429261281574292712815842933128164429341281654294512833443242129334429591283484325612934842963128352432611293534297012835942676127359429751283644297412836342976128365426811273644299612838542997128386430081283974300912839843045128437430441284364305012844243051128443430601284524276612745243063128455427691274554307212847100000000000430761284760000000000043081128481430821284824309912849943098128498431151285154311612851643177128577431781285784318212858242886127582431831285834288712758343185128585428891275854319812859842903127599432021291350000000000043211129146432101291454321412914942918128149432471293394353613033943248129340435371303404325712934900000000000432711293634297312836243280129372429831283724328812938042991128380433021293944359213039543304129396433051293974331012940243311129403433181294104302112841043320129412433211294134335912945543064128456433631294594306712845943371129478000000000004337312948000000000000433791294860000000000043402129509434031295104341112951843118128518434231295304342412953143452129559437291305604345712956443458129565434621295694373813056943482129589431901285904350313014643780131145435191301624352013016343531130334435301303334353413033743535130338))
 (.node 1 (.leaf 4354213034543820131345435491303524382713135243559130362435581303614356813037143278129370435721303754385013137543582130385435831303864359113039443592130395435971304004330812940043608130411433191294114362313042643622130425436321304384334112943743638130444433481294444364213044843352129448436511304574392913145743678130509434031295104369213052343417129524437061305374398913153843714130545437131305444371913055043718130549437311305624401413156343745130576437461305774375013058144032131581437561305874403713158643761130592437621305934376413059544046131595437661305970000000000043789131154435111301544379013115543512130155437961311614379713116243812131337438131313384381713134243816131341438241313494410613234943829131354441111323544384313136844124132367438611313864386213138743864131389435861303894386513139043588130391438661313914358813039143876131401438771314024389013141543891131416439021314274390113142643913131441439121314404392313145144204132451439241314524392513145343933131461436551304614393813146700000000000439651315144368213051343970131519436881305194397713152643695130526439781315274369713052843983131532442691325334399813154744283132547440071315564429113255544017131566443021325664402113157044022131571440361315854403713158644042131591440431315924406213214600000000000440671321514434513315144085132328000000000004408913233244088132331440981323414409713234044103132346443841333454411513235843832131357)
 (.leaf 4411713236043835131360441261323694440713336844136132379444191333804414013238343857131382441441323874386313138844155132398438731313984416713241044166132409442101324574449213345844239132503445181335024424113250544521133505442441325084452313350744246132510439611315104424713251143961131510442481325124396313151244251132515439671315164425813252243973131522442611325254397613152544268132532442691325334427113253544272132536442801325444399513154444286132550445661335504429813256244578133562443191325834459913358344325132589446051335894434113314700000000000443521331584462813415944353133159446281341594435613316244631134162443731333344465513433444380133341440971323404440213336344683134362444421334034444313340444446133407444451334064446013342144459133420444691334304447013343144471133437000000000004447513344144474133440444781334444476013444344490133456444911334574450513347144504133470445241335084452313350744570133554448531345544461813414944898135148446271341584462813415944649134328446481343274465213433144938135331446691343484467013434944677134356449631353564468913436844688134367446951343744498013537344717134396444351333964472113440044439133400447341344134473513441444741134420444591334204476613444944767134450447731344564477413445744804134505448031345044482013452144819134520448241345254511013552544828134529448291345304483113453245118135533448321345334483313453444836134537451221355374484513454645130135545)))
 (.node 2 (.node 1 (.leaf 4486013456144859134560448681345694515513557044869134570451551355704487313457445159135574449011351514518513615144902135152451861361524494513533844946135339449481353414466113434044959135352446721343514496413535744963135356449751353684497413536744979135372452631363724498513537845270136379449891353824527413638344995135388452781363874499613538945279136388449991353924471413439345010135403447251344044501513540845014135407450351354284503413542745041135438000000000004504513544244760134443450521354494505313545045056135453453411364544505913545645060135457450631354604534813646145070135467450711354684507313547045358136471450811354784536613647945105135520453891365204512313553845407136538451241355394540813653945128135543000000000004513313554844847134548451581355734515913557445188136154454641371534519313615945471137160451941361604519513616145218136327452171363264522613633544942135335452371363464523813634745272136381452731363824527613638545555137385452771363864527813638745286136395450021353954529913640845298136407453031364124530413641345309136418450251354184535913647245358136471453631364764564313747645368136499000000000004539113652245392136523454311365644570313756445445136578000000000004545113658400000000000454651371544573013815445478137180000000000004552813735845527137357455341373644525413636345535137365452561363654554113737145806138371455451373754554413737445547137377458121383774555913738945824138389)
 (.leaf 4556013739045824138389455691373994557013740045574137404455731374034557613740645297136406456051374380000000000045610137443453311364444561713745045882138450456201374534562113745445625137458453461364594563813747145358136471456391374724535813647145641137474459071384754565113750400000000000456601375134565913751245665137518456661375194567913753245941138532456911375524541913655245693137554459531385544569513755645956138557456981375594569913756045711137572459721385734571713757900000000000457191375810000000000045725138149000000000004573413815845733138157457381381620000000000045744138181454791371814574913818600000000000457521382050000000000045770138335000000000004579013835546044139356457971383624553213736245804138369460571393694581513838045816138381458701384380000000000045876138444456121374454589813846645899138467459141385050000000000045919138510456571375104592213851345921138512459251385164617413951745932138523456711375244594513854646192139546459541385554595513855645966138567459671385684600413918500000000000460211393334602013933246025139337457731383384602613933845773138338460271393394577413833946028139340457751383404602913934145776138341460331393454578013834546039139351462941403524604013935246294140352460411393534629514035346046139358460451393574604913936145796138361460681393804581613838146079139391460781393904609713940946098139410461021394144584913841446105139417463591404174611013942246109139421))
 (.node 1 (.leaf 4611513942746114139426461191394314586613843146138139454461391394554616913951246420140513461831395264593613852746194139548461951395494620813956246207139561462181395720000000000046221139580000000000004623214015246477141152462391401594598913915846248140178000000000004625214018246253140183462641402160000000000046275140333462741403324630414036246303140361463291403874657214138746335140393465781413934633714039546580141395463411403994658414139946344140402463431404014635114040946352140410463581404164635914041746376140434000000000004640814047246409140473464121405050000000000046416140509464171405104642214051546423140516464461405524668514155246463140569464641405704647914115446717142155464951411794649414117846499141183465001411844650314121546502141214465121413270000000000046513141328467631423284652114133646520141335465311413464628814034646551141366468021423674655314136846803142368465561413714680614237146559141374468091423744656414137946565141380465741413894682314238846586141401468361424014659014140546839142404465951414104684614241146603141418466041414194661514143046614141429466231414454638114044546633141455466341414564664314146546402140466466721415234667114152246678141529000000000004670214156946953142570467141421520000000000046720142158469661431584676814233346767142332467851423504653614135146788142353467891423544679514236047052143360467981423634679714236246816142381468171423824682714239247084143392)
 (.leaf 4684514241047103143411468511424164685214241746871142442000000000004687614244746625141447468781424494662814145046879142450466281414504688814245946637141459468981424694664614146846902142473000000000004692414252446923142523469271425274718414352846940142557471941435574694814256547202143565469691431614722314416146971143163469701431624697714316946976143168469861431784698514317747004143217000000000004703214334047270144340470351433434727214434247038143346470391433474706714337546810142375470861433944732414439447089143397473271443974709814340647097143405471241434324712314343147139143452471401434534715014346346892142463471541434674689614246747165143509471661435104716714351147403144511471701435144740714451547174143518471751435194718314352700000000000471951435584742814455847197143560474291445594719814356147431144561472061435694720514356847228144166469751431674723714417546982143174472441441824699014318247265144335000000000004726814433847492145338472711443414749514534147289144359475131453594729114436147290144360473041443744730314437347310144380475341453804731114438147312144382473181443884731914438947321144391475461453924733014440047329144399473351444054733414440447340144410473411444114734614441647570145416473541444244735314442347374144449473751444504738314445847145143458473851444604714714346047386144461471491434624738914446447390144465474011445094740214451047443144600000000000004745114516047673146160)))))
 (.node 8 (.node 4 (.node 2 (.node 1 (.leaf 4746114517047232144170474691451784723914417747473145182472451441834748314532947482145328474861453320000000000047499145345474981453444751514536147738146361475191453654751814536447563145409475641454104759214544400000000000475971454494737514445047599145451476001454524760414545647381144456476211455084784514650947631145518478551465194764614555647425144555476681456034744614460347678146165478971471644768114616847902147169477211463444772014634347725146348479431473484772814635147729146352477461463694796314736847749146372475251453714775214637547751146374477551463784797314737847765146388479831473884777914640247555145401477841464074778514640847788146411475651454114780614642947583145429478081464310000000000047816146444000000000004786014652400000000000478651465524807814755247875146562480861475624787814656548089147565479081471754790714717447910147177479111471784792914733447928147333479321473374793114733647936147341479351473404793714734247719146342479401473454793914734447975147380481891483814799014739547772146395479931473984799214739747997147402479961474014800214740747785146408480091474144779114641448038147449482551484504805114746248052147463480591475104806014751148095147571480941475704811814817847912147179481381483304834514932948146148338483541493384816514835747952147357481771483694838414936848181148373481801483724819814839048199148391482091484014820814840048217148409480041474094823114842348018147423)
 (.leaf 4824314843548242148434482521484474825114844648274148511480611475124828314852000000000000482871485490000000000048299148564480891475654831114857600000000000483141486014831314860048325149181481221481824832814918448124148184483311491874812814818848342149326000000000004834814933248347149331483781493624858315036248389149373485941503734841714940148416149400484211494054821314840548427149411484281494124844314942748442149426484581494450000000000048465149452484661494534849014952000000000000485001495644850114956548509149573487111505734852515018048526150181485331501884873415118848563150342487611513424856915034848570150349485781503574857915035848596150375485951503744860315038248802151383486071503864880515138648622150401486211504004862615040548824151405486431504224864415042348648150427486471504264865715043648656150435486651504460000000000048686150514486871505154869215052000000000000486961505584889115155848718150601000000000004872815118248923152182487351511894853515019048748151329487471513284876415134548765151346487831513644897315236448786151367489751523664879615137748795151376488061513874899615238748811151392488121513934881815139948817151398488251514064882415140548833151414490231524144883515141648637150416488381514194864115042048842151423488431514244884715142848846151427488641514460000000000048873151455490641524554887515145700000000000488791515114868315051148918152177000000000004893415219300000000000))
 (.node 1 (.leaf 4894015233149130153330489621523534915315335348968152359491591533594898915238048990152381490031523944881215139349009152400490081523994901915241049211153411490221524134921315341349032152423490331524244906915251348881151513490761525200000000000049084152563490831525624908715256649277153566490911525704928115357049095152574490941525734911415318500000000000491191531904912015319149121153192000000000004914215334248951152342491561533564915715335749174153374489821523734917815337849362154379492011534014920015340049206153406492051534054921215341249395154412492331534334904215243349240153440490491524404924115344149050152441492501534500000000000049253153453000000000004928915357800000000000493111543284931015432749318154335493171543344932015433749137153337493231543404914015334049343154360491611533614934515436249163153363493541543714917015337049355154372491721533724935615437349172153372493611543784936215437949368154385493691543864937415439149191153391493751543924919215339249384154401493831544004938915440649388154405494031544204940415442149414154431494131544304941515443249232153432494191544364942015443749433154450000000000004944115451349622155514494451545174944615451849451154558496321555584946715457549285153574494831551920000000000049493155327494921553264949615533049675156329495361553704953515536949560155394493771543944958115541549761156415495821554164976215641649584155418495831554174958715542149404154421)
 (.leaf 4960015543449601155435496201555124962115551349624155516496251555174966115618849837157189496661562140000000000049679156333494991553334969415634849514155348496971563514951815535249703156357498861573584971615637049715156369497271563814954815538249732156386495521553864974615640049927157399497541564084993615740849757156411499401574124976015641449942157414497761564304959615543049812156565000000000004982115657450007157574498411572110000000000049858157330500541583304986415733649865157337498671573394986815734049880157352498811573534988415735650080158356498891573615008515836149890157362500851583614989215736449710156364498931573654971115636549894157366497121563664990415737649722156376499071573794972515637949914157386497331563874991715738949735156389499391574115013615841249941157413501381584144995215742449953157425499591574314995815743049975157447000000000004998115745900000000000499931575184999415751950038158220500391582215006315833950064158340500681583444987215734450127158403503271594035013115840750130158406501411584175034115941750143158419503431594195016615844249971157443501721584480000000000050173158450000000000005017515845200000000000501811584585038315945950186158511000000000005019015851550191158516502041585725040315957350233159216000000000005024515922800000000000502551593310000000000050257159333502561593325026415934050064158340502711593475007115834750280159356502811593575029615937250295159371)))
 (.node 2 (.node 1 (.leaf 5030015937650099158375503041593805010515838150308159384503071593835031915939550118158394503421594185053916041850347159423503481594245035015942650349159425503681594445016715844350382159458503831594595038715951200000000000504281602125062916121250432160217000000000005044416022950246159229504481602335044916023450456160335506581613355046216034150265159341504631603425026615934250471160350504721603515048916036850490160369505101603895050916038850514160393503171593935052016039950519160398505301604095033415941050547160426505461604255055016042950354159430505581604375036015943650576160455507781614555058916051800000000000505981605720000000000050631161214506321612155063916122250845162223506511612345065216123550657161334508621623335067216134950877162348506871613645089316236450691161368506921613695070416138150910162381507251614025072416140150727161404505241604035074916142650748161425507711614485077216144950775161452507761614535078216145950783161460507851615120000000000050790161517000000000005079716155800000000000508311622095083216221050837162215506321612155084316222150844162222508461622245104416322450847162225510451632255086416233551063163334508661623375106616333750874162345510741633455087616234751076163347508881623595108816335950894162365510941633655090216237351102163373509171623885091616238750925162396507191613965092816239950927162398509401624115094116241250955162426507481614255096216243350961162432)
 (.leaf 5099316251600000000000509971625220000000000051010162611000000000005102316320300000000000510271632075083016220851040163220510411632215104716322751241164227510601632400000000000051067163338512601643375107916335051273164350510911633625128516436251103163374512971643745110516337651298164375511101633815090916238051114163385509141623855113616340751329164406511411634125094116241251144163415509441624155115416342550954162425511591634305115816342951164163435513581644355116716343850968162439511721634435136716444451173163444513671644445117616344751370164447511791634505137416445151198163522000000000005122416421051030163210512321642185123316421951237164223512381642245125516424151061163241512581643355125716433451267164344512681643455128916436651480165366512901643675148016536651313164390513141643915131516439251316164393513171643945131816439551336164413511421634135134516442251151163422513471644245115316342451363164440513641644415139916460951588165609514201652165142116521751425165221514261652225143616523251245164231514401652365163316623651452165338516431663375145416534051453165339514551653415164716634151482165368516741663685149516538151494165380515091653955131816439551512165398513211643985151316539951321164398515171654035170916640351523165409517141664085152816541451529165415515431654295135116442851565165451517581664525161416621751615166218516231662265162216622551625166228514321652285164016624300000000000))
 (.node 1 (.leaf 5164216633600000000000516491663435183316734351652166346518361673465166516635951850167360516771663715186016737051685166379514921653785170216639651510165396517111664055171016640451720166414515291654155173516642951542165428517471664415174816644251762166456517631664575177416656200000000000517881672065160316620651795167213516101662135179616721451611166214517991672175180016721851843167353520351683535184416735452036168354518521673620000000000051854167364000000000005185716736700000000000518751673855206116838551882167392516991663935189016740052077168401518991674095208516840951908167418517241664185191216742251728166422519251674350000000000051928167438521151684395193616744652122168446519481674580000000000051962167595000000000005199016822251991168223520061682385182116723952014168246000000000005202316834152208169340520391683575203816835652045168369000000000005205316837751867167377520581683825224216938252064168388522471693875207816840252077168401520821684065226616940652087168411520861684105209116841551905167415520931684175190616741652095168419519091674195210116842551915167425521141684385229816943852116168440521171684415212816845252312169452521481685950000000000052181169228521801692275219616924352197169244522011692485201616824852206169253000000000005221716934900000000000522191693510000000000052223169355524051703555223016937000000000000522501693905225116939152253169393524311703935225616939652434170396)
 (.leaf 5227216941252271169411522841694245209916842352287169427521031684275229416943452471170433523141694545249217045452323169555000000000005232816956452142168564523301695660000000000052332169591523311695905233516959452336169595523381695970000000000052347170206525191712065236117022052174169221523721702315218416923152374170233521861692335237717023652376170235523881702475220016924752390170249522021692495239317025252205169252523961702550000000000052412170374525761713745245817042052280169420524641704265228616942652475170437524761704385250317056252665171562525271712145252817121552531171218525321712195255817124552386170245525751713730000000000052579171379000000000005258817138852589171389525961713965259717139752608171408526071714075261317141352612171412526291714295246717042952630171430524671704295264517144552804172444526631715560000000000052694172215525281712155271117223252712172233527181722395287717323952720172241527211722425274417238452743172383527541723945275517239552758172398529171733985277817241852777172417527951724355279417243452799172439528001724405280617244652964173445528091724495296917345052825172564529811735645283117258852672171588528361725935283717259452845173207526861722075285117321353007174213528561732185285717321952883173245527231722445288717324952729172250528891732515273017225152904173385529031733845290817338953064174390529211734025292017340152926173407529271734085293817341952937173418))))
 (.node 4 (.node 2 (.node 1 (.leaf 5294417342552943173424529921735925299317359353003174209528471732095302917423553030174236530341742405287817324053039174245528821732445304917425552893173255530691743955323317539653083174409530821744085309017441652934173415530991744255294317342453111174437532751754385313117455553290175555531351745595297817355953142174567000000000005316817521253169175213531721752165317317521753178175222531791752235318317522753182175226531861752305302317422953199175243530371742435320017524453038174244532141752580000000000053220175383532191753825323217539553233175396532521754155325117541453265175428532641754275326717543053104174430532761754395344117643953279175442534451764435329517556053136174560533001755650000000000053308175587531471745875331217559153313175592533241762045332317620353330176210534981772105333317621353502177214533411762215351017722253347176227531821752265334917622953185175229533551762355352317723553371176251535401772525338317638153382176380533881763865355617738653399176397535661773965340917640753577177407534211764195358917741953433176431532691754325343617643453437176435534481764465361617744653449176447536171774475345917656253296175561534731765865330617558553481176594533151755945349117720353322176202534971772095367717820953503177215535041772165352217723453702178234535361772485371617824853538177250537191782515354417725653724178256535481773780000000000053557177387535561773865356417739453744178394)
 (.leaf 5357317740353404176402535751774055340617640453622177557000000000005363917758253468176581536761782085367717820953680178212538621792135369217822453693178225537041782365388517923653706178238537051782375371417824653895179246537151782475371617824853736178386537351783855376217841253761178411537671784175358717741753782178432000000000005378517843553786178436538051785635380617856453818178583539971795835382017858553819178584538241785895382517859053828178593540071795935385017920153668178200538561792075385717920853864179215540451802155387017922153871179222538761792275405818022853880179231540611802315388217923354063180233538881792395388717923853892179243540731802435389917925054080180250539131793795391217937853915179381540961803805391617938254097180381539241793905392517939153933179399539321793985393717940353936179402539501794165376517841553954179420541361804205395717942354140180424539631794295396217942853985179562539861795635399217957800000000000540061795925418918059354036180206540371802075405418022454055180225540741802445425118124554079180249542561812505408518025554260181254540871802575408818025854107180391542881813925412818041253945179411541441804285414318042754158180442541591804435418018058454179180583541841805885436218158854211181205542121812065423118122554056180226542381812325423918123354245181239542441812385424718124154248181242542801813845410018038454283181387542821813865431218141654311181415))
 (.node 1 (.leaf 5431418141854135180419543181814225431918142354331181435541521804365433818144254339181443543441815625434518156354352181578000000000005439618220054590183200543991822035459418320454403182207544041822085442218222654423182227544361822405463018324054476182387544751823865447918239054287181391545041824155450318241454516182427543221814265453818256354539182564546041832145460518321554607183217544141822185462218323254623183233546341832445463518324554655183265546541832645466218337954661183378546701833875466918338654674183391546751833925468318340054682183399546841834015448918240054686183403544911824025469018340754496182407547121834295471118342854715183432549211844325471818343554925184436547211834385472218343954742183580547411835795474818358654951184586547491835875495218458754750183588549531845885475718359954561182598547741836230000000000054776183625549711846255480318420855003185209548301842355483118423654849184254546451832555486418426954659183269548711843825466518338254895184406546881834055490218441354901184412549061844175511318541754909184420551171854215491718442854916184427549231844345492418443554926184437549271844385493718456554734183566549401845685494118456954949184584551571855845495018458555158185585549641846030000000000054972184626000000000005499718520355206186203550091852155481118421655012185218550131852195503518524155245186242550461852525484718425255055185261548571842625507218527800000000000)
 (.leaf 5508718539155088185392550951853995488718439855111185415551101854145511618542055117185421551211854255491418442555123185427551221854265513518543955136185440551551855820000000000055170185601000000000005520218619900000000000552081862055542518720555211186208554291872095523518623255236186233552401862375524118623855249186246550401852465526018625755051185257552611862585505218525855262186259550531852595528418628100000000000552881863835528718638255290186385555081873845532018641555539187415553501865665514318556655351186567553521865685535918658100000000000553971866320000000000055426187206556291882065543118721155432187212554711872515525418625155483187263554821872625548518726555269186266554921872725527518627255499187279552821862795551118738755713188387555311874075531118640655546187422557481884225554718742355749188423555561874325555518743155558187434557611884355556218743855765188439555691875695535318656955579187599555781875985558418760455585187605556011876345539918663455607187640556061876395562218819955813189198556481882255544518722555654188231556551882325569818827555495187275557061882830000000000055715188389559071893895571818839255515187391557241883985552218739855747188421559391894215576318843755764188438557731885705577418857155794188638559781896385579818864255609187642558361892215564518822255843189228556521882295585318923855662188239558591892445566718824455871189256556791882565588118926655689188266)))
 (.node 2 (.node 1 (.leaf 5589218927756078190276559261894085573418840855934189416557421884165594218942455941189423559871896475580318864756000190198561861911985601219021055826189211560211902195583418921956044190242558581892435606919026756070190268560831902815608419028256087190285559001892855609219038400000000000561121904045592218940456114190406559241894065613519042755945189427561531905710000000000056161190634000000000005616219063500000000000561631906360000000000056167190640563491916405617219064556171190644561911912035619019120256205191217560191902175621719122956032190230562261912385604019023856246191258562471912595625619126856071190269562771912890000000000056282191388560951903875629119139756105190397562961914025611019040256324191430565161924305635919165056177190650563861922065657319320756393192213562011912135639519221556203191215564001922205620919122156425192245562331912455642619224656233191245564551922755626319127556469192289000000000005647619239056284191390564811923955628919139556511192425565101924245651819243256704193433565291925740000000000056542192642567361936415656619320000000000000565771932115639119221156591193225565921932265659419322856595193229566031932375641719223756606193240564201922405663619327056451192271566461932805646119228156648193282564621922825665919338856658193387566621933915647719239156708193437565231924375673419363956733193638567411936465674219364756744193649569351946505674819365300000000000)
 (.leaf 5675519420156754194200567871942335659919323356789194235566021932365679019423656602193236568011942475661319324756827194273566391932735683119427756830194276568381942845665019328456849194389568481943885685719439756667193396568851944255688419442456889194429567001934295691219458356913194584569461952010000000000056962195217567711942175696719522256968195223569761952315678519423156987195242567961942425699019524556798194244569941952495680319424956995195250568041942505700119525656810194256570051952605700619526157010195265568181942645702119527656830194276570321952875703319528857047195396570461953955706119541056870194410570941955770000000000057095195578000000000005710219558500000000000571171956405732419663957122195645571231956465715819621856963195218571641962245716519622557197196257570021952575720719626757012195267572101962705701519527057223196283572221962825722819628857229196289572331963885723219638757238196393570451953945724319639857049195398572491964045705519540457251196406570571954065725619641157257196412572691964245727019642557273196428572741964295728419658000000000000573231966380000000000057334196652000000000005735319720457352197203574331972845762319828357438197289000000000005744119738857440197387574601974075725219640757473197420572661964215747919742657270196425574901974375749119743857519197640000000000005754619820657354197205575541982145736319721457567198227573761972275757219823257382197233))
 (.node 1 (.leaf 5757719823757386197237575871982475758619824657592198252574021972535759319825357402197253576081982685741719726857615198275574241972755762519828557797199285576351983915763419839057638198394576391983955764319839957452197399576751984315748519743257677198433576781984345770019865300000000000577041986570000000000057720199208575481982085772219921057550198210577291992175755719821757743199231575711982315774519923357573198233577861992745795020027557815199400576441984005781619940157645198401578171994025764619840257833199418576621984185783919942458001200424578431994285800520042857852199437578531994385789220021757730199218578942002195773119921957895200220578962002215790020022557738199226579242002495792320024857941200266579402002655794520027057782199270579532002785779019927857958200283581182012845796620038957965200388579742003975781219939757982200405578211994065798620040957824199409580022004255815920142558006200429581622014285801620043900000000000580382012040000000000058043201209582002022105805520122158056201222580752012415791620024158089201255579302002555810920127557950200275581102012765795120027658115201281582722022825814820141457991200414581612014275816220142858169201435583242024355819420220400000000000582082022185836120321958212202222582132022235822920223958073201239582412022515824220225258259202269582602022705827620238700000000000582782023895812220138858281202392581272013935828220239358127201393)
 (.leaf 5828420239558129201395582882023995828920240058300202411581452014115830820241958459203419583502032085851020420958359203217585192042185836420322258365203223583742032325837320323158380203238583792032375840120325958249202259584022032605825020226058406203264584052032635841120326958412203270584222032805842320328158427203387000000000005844120340158602204402584442034045860520440558446203406584452034055847020343058471203431585062042050000000000058542204241585432042425855220425158553204252585562042555839720325558570204269585712042705857820427758739205277585802042795874120527958585204284000000000005859920439958762205400586082044085877120540958650204622000000000005865120462300000000000586522046240000000000058653204625000000000005865620462800000000000586582046300000000000058664204644586632046435867720521558515204214587092052475854820424758713205251585532042525871520525358554204253587242052625856320426258727205265587262052645873620527458575204274587452052830000000000058750205388585872043875875720539558595204395587782054165893720641658801205439588022054405882920620700000000000588372062155883620621458846206224586872052255884820622658849206227588632062415870420524258865206243587052052435886720624558707205245589032062815890420628258908206387589072063865892220640158923206402589342064135909620741258945206424589442064235894820642758790205428589572064365879920543758965206457000000000005898520664459152207644))))))
 (.node 16 (.node 8 (.node 4 (.node 2 (.node 1 (.leaf 5899220720700000000000589962072115899720721259004207219588412062195901220722759013207228590152072305885220623059032207247588682062465903420724958870206248590442072595888020625859054207269588912062695905520727059056207271590672072820000000000059074207390592462083905907620739259248208392590772073935924920839359081207397592532083975908620740259087207403590932074095909220740859098207414592702084145911220742859113207429591162074325895320643259146207629593212086295917320821659000207215591802082235935520922459184208227590132072285922220826559223208266592342082775906320727859241208385592402083845925620840059429209400592672084115944120941259274208418594472094185927620842059449209420592952084395929620844059303208460000000000005930920861500000000000593172086255931620862459328208644593272086435933120864700000000000593392092080000000000059340209209595102102095936020922959186208229593672092365919220823559378209247595482102475938320925259210208253593892092585921520825859392209261592192082625940120927059227208270594282093995942920940059446209417594472094185945320942459454209425594622094335946320943459469209440596412104415947220945500000000000594882096190000000000059493209624594922096235950220964459501209643595062096485933220864859520210219595212102205952421022359525210224595342102335936420923359535210234593652092345953821023759368209237595402102395937020923959541210240593702092395954521024459721211244)
 (.leaf 5954621024559721211244595522102515955321025259558210257593882092575956321026259393209262595742102735940320927259585210385595842103845959521039559773211395595972103975977521139759601210401596022104025960921040959437209408596482104590000000000059655210613594822096135966721062559495209626596682106265949520962659669210627594962096275967021062859498209629596722106305950020963159676210644596752106435968721121000000000000596902112135987521221359693211216596922112155970521122859706211229597202112435990621224459731211254597322112555973421125759557210256597442112675993021226859749211272595732102725975321127659578210277597792114015978021140259785211407599692124065980521142759990212427598152114376000021243759824211455596442104555982521145659644210455598382116145983921161559843211619596622106205986221164559861211644598872122255970221122559888212226597022112255990421224260100213243599252122636012121326459928212266601242132675994921238659948212385599512123885995221238959954212391601472133915995921239660152213396599642124015996521240259968212405599692124065998321242059799211421599872124245998821242559997212434601892134336000221243900000000000600212126096002021260860027212615598392116156003321262160034212622600442126325985721163360046212634000000000006005721264860056212647600722132150000000000060074213217602642142166008721323059892212230600982132416009921324260103213246602932142456010821325160107213250))
 (.node 1 (.leaf 6011121325459916212254601312132746013221327560149213393603392143926015021339460341214394601572134016015821340260192213436603842144376019621344800000000000602032134556001021245460213213607000000000006022921362360228213622602482136446005221264360280214232600882132316029021424260291214243602982142506029721424960308214260604952152606030921426160496215261603142142666031521426760322214274603232142756032921428100000000000603502144036035121440460357214410605442154106037021442360180213424603912144526020021345260397214458603982144596040321460860402214607604072146126059121561260416214621604172146226042021462560605215626604232146286042221462760442214648604412146476046821523360281214233604712152366028421423660484215249602962142486049921526460689216264605132152786051421527960516215281000000000006053921540560729216406605502154166036321441660553215419603652144186055421542060367214420605592154256037221442560567215433000000000006057121544800000000000605772154546039321445460595215616605962156176060421562560605215626606102156316079621663060614215635606152156366065321622860654216229606552162306084221723160666216241608532172426067621625160675216250606812162566086821725760682216257608692172586069021626560689216264607002162756088721727660713216390607142163916071821639560717216394607352164126073621641360763216453605762154536077321660760586215607607792166136077821661260784216618607832166176078821662260789216623)
 (.leaf 6079221662660605215626608032166376080421663860809216643608082166426081221664660624215645608142166486062621564760830217219000000000006083421722361009218223608522172416085321724260857217246610312182456086121725060675216250608672172566086821725760890217279608912172806089321738561067218385609042173966090321739560910217402609112174036091521740760730216407609162174086109021840860925217417609242174166092721741960742216419609342174266093521742760937217429611112184296094321745061116218450609512174580000000000060961217612609602176116097121762260972217623609782176296079621663060981217632609802176316098621763760987217638610012176520000000000061005218219000000000006101521822961016218230610242182386120621923961028218242610292182436104221825661043218257610472182616104621826061050218264608742172636105721827160882217271610602182746106121827561069218387610682183866108321840161084218402610972184156092221741461105218423611062184246112221845661302219456611272186046112621860361130218607613142196076115521863261154218631611672186446116621864361173218650611742186516120521923861387220239612152192486103321824761222219255614032202556123621926961055218269612372192706105521826961238219271610562182706124121927461061218275612422192756106121827561244219277610642182786125221938961432220389612652194026126621940361276219413614552204126132321961661322219615613242196176114021861761332219625611482186256134821964161349219642)))
 (.node 2 (.node 1 (.leaf 6138122023361201219234613862202386157722123961392220244613912202436139622024861214219247614002202526159022125261401220253615922212546140822026061227219260614292203860000000000061435220392614342203916144222039961443220400614542204116164322141161469220426614702204276147822045361477220452614902205970000000000061499220606613132196066150222060961316219609615052206126131921961261528220635617232216356152922063661723221635615332206406134721964061539220646617332216456154922065661363219656615582212200000000000061567221229617642222296157422123661575221237616262213946162722139561630221398616312213996165022141861845222418616532214216184922242261654221422618502224236166122142900000000000616642214486147322044861684221596614892205966168622159861491220598617082216206170722161961716221628615212206286172022163261525220632617302216426153522064261736221648617352216476176022222561563221225617712222366177222223761782222247615852212476178722225261983223253618002222656179922226461805222270618042222696181222227761813222278618172223906201022338961826222399618272224006183322240661834222407618382224116164322141161842222415620372234166184822242162043223422618652224536166822145261867222455618682224566187122259100000000000618832226036169222160461895222615617032216156189822261861897222617619022226226171022162261904222624619052226256190722262761715221627619572232276195822322861961223231621552242316196622323661967223237)
 (.leaf 6198022325061981223251619882232586179222225761998223268618032222686201222339162204224390620222234016202322340262027223406620282234076203022340962029223408620362234156223022441662042223421622362244226205722345162056223450620652235900000000000062093223618622882246176210422362962105223630621252236506232122465062129223654619332226536214622422262145224221621632242396235722524062166224242621672242436216922424562168224244621742242506217522425162182224258619872232576218922426561995223265622062243926220522439162210224396624022253976221122439762402225397622132243996221422440062238224424622392244256224422443062051223430622602245890000000000062273224602620772236026227622460562277224606622832246126208722361262305224634623062246356231022463962500225640623172246466231622464562319224648625092256496232822465762518225658623512252346254222623562355225238623562252396236222524562551226244623772252606237622525962382225265623812252646238622526962387225270624192254146242022541562444225453626322264546245322559362452225592624602256006245922559962467225607622782246076246822560862278224607624862256266248522562562491225631626792266326250122564162687226640625272262206271122721962544226237625452262386255322624662552226245625582262516255922625262566226259623752252586256922626262568226261625712262646238022526362584226391627632273906258722639462767227394626062264136278722741462612226419624242254196261622642362797227424))
 (.node 1 (.leaf 6262522644700000000000626292264516262822645062642226595626412265946266122661462660226613626642266170000000000062681226634628602276346268222663562861227635627002266536251322565362715227223000000000006272022722862719227227627212272296290022822962733227241627342272426273822724662917228246627422272506274322725162769227396629472283976277622740362777227404627822274096260222640962788227415626082264156279522742262796227423628142275886281322758762818227592628172275916282222759662821227595628282276026282922760362847227621628462276206285522762963033228630628692276436286822764262872227646630492286466287622765063052228649629042282336290522823462914228243630952292446291822824762917228246629242282536292322825262928228257627482272566292922825862750227258629392283890000000000062943228393629442283946295022840063128229400629512284016312922940162962228412627862274136296722841762790227417629782284286315722942962999228596628212275956301222860962835227609630282286256320722962663030228627632092296286303422863163213229632630352286326321422963363040228637632182296376305322865063052228649630582286556288122765563060228657628832276576311322926263114229263631182293906311722938963122229394633012303956313022940263308230402631332294056331123040563134229406633122304066314022941262963228413631602294486333423044863161229449633352304496316422945263338230452631822296016300422860163185229604630072286046318722960663009228606)
 (.leaf 6319522961463017228614632032296226320222962163224229643632232296426324923021900000000000632552302250000000000063265230235632662302366327023024063271230241632962303906329523038963310230404634832314046331423040863313230407633212304156314222941463328230422633292304236335223059763351230596633672306126319322961263378230623633792306246342323121963422231218634312312276359923222863440231236634412312376346323125963629232258634692313906346823138963485231406634842314056348823140963487231408634972314186332423041863500231421635012314226351323159163512231590635182315966351723159563523231601000000000006352623160463690232605635392316176337123061663554231632637182326336356823164663567231645635712316496373323264863575231653637372326526357723165563740232655635812316596341523066063584231662635852316636358723166563420230665635902322196358923221863602232231637652332316360523223463606232235636172322466378023324663630232259636292322586363623239163635232390636692324246367023242563674232589636732325886367523259063511231589636892326046369023260563693232608636942326096373623265163899233652637522332180000000000063788233254639502342536379523326163796233262638012333946396423439463803233396639652343956380723340063970234400638182334116398023441063825233418638242334176383023342363831233424638432335966368123259663848233601640112346026385923361264021234612638622336156402423461563865233618638642336176386823362164031234622))))
 (.node 4 (.node 2 (.node 1 (.leaf 6387323362663874233627638762336296387723363063887233640640492346406390023365363899233652639232342266408723522663926234229640902352296393123423464095235234639382342416410323524263961234391639602343906397523440563812233405639832344136398223441263992234422639932344236400123459264000234591640062345976416823559664015234606638532336066401623460763853233606640232346146418723561564027234618641902356186403323462464196235624640542346456421723564564059234650642222356506407823521700000000000640812352206408023521964085235224642472362246409423523364256236233641192352586411823525764125235391000000000006413223539864133235399641512354176398723441764159235425000000000006416923559764168235596641742356026417523560364198235626641992356276420223563064203235631642262356546438723665464230235658643902366576423423566264071234662642372356656407523466664258236235644192372356425923623664420237236642602362376442123723764267236244644272372436426923624664430237246642732362506427223624964281236258641182352576430823641364307236412643152364206431623642164318236423643192364246432323659064481237590643262365936448423759364332236599643332366006434223660964343236610643472366146450623761564353236620643542366216435823662564357236624643632366306436423663164373236640645312376406438523665264543237652643862366536454423765364402237218644012372176442223723864581238238644232372396458123823864426237242645842382416444223725864441237257)
 (.leaf 6446623741164465237410644752374206447623742164479237424000000000006449723760664498237607645222376316436423663164553237662645522376616455823766700000000000645642382216471923922164566238223647212392236457123822800000000000645742382310000000000064596238253647512392536460723839664451237396646262384156462523841464635238589000000000006464123859564792239595646452385996449023759964646238600646472386016466323861764664238618646922386466469123864564706238660647052386596470723866164552237661647112386656486223966564715239217000000000006472323922564724239226647422392446489224024464759239395647582393946477423941064621238410647812394176493024041664786239422000000000006482523962864974240628648292396326467923863364833239636646812386356485523965864854239657648812402336503124123464887240239650362412396488924024164888240240648942402466489324024564898240250647482392506491624040264766239402649212404076492024040664935240421000000000006494324059765092241597649792406336498024063464986240640649852406396498924064364841239644649982406526499724065165014241217650132412166505124125465052241255650612413986520724239765069241406649202404066508324142000000000000650872415926523224259165094241599650932415986509824160365099241604651032416086510424160965109241614652552426146511124161665258242617651122416176525824261765116241621652622426216512924163465130241635651462416516499724065165150241655650012406556515524166065005240659))
 (.node 1 (.leaf 6516024166500000000000651712422256531824322565178242232651792422336518824224265187242241651912422456519024224465210242400650632414006521224240265211242401652192424096507224140965228242418653742434196523424259365233242592652462426056524724260665252242611653962436116525424261365253242612652662426256541024362565271242630652702426296528124264065280242639652822426416513524164065310243217653092432166531324322065314243221653222432296532124322865325243232653262432336533724324465336243243653432432506548624425065385243600655252446006538824360365389243604653932436086539424360965411243626655432446256541724363265273242632654242436396528024263965435243650654342436496543924365465295242654654422436576529824265765450243665000000000006546224422665319243226654682442326546924423365480244244654792442436548524424965616245248654942443986535324339865507244411656392454116551024441465511244415655132444170000000000065521244596653802435956554624462865545244627655792446616558024466265585245217655842452166558924522165590245222656012452336572424623465621245253656222452546562424539600000000000656312454036575324640365634245406657572464076563524540765757246407656372454096575924640965646245591000000000006566224560765783246608656632456080000000000065699245658655752446576571224622265713246223657222462326572324623365737246247657362462466576924659465768246593657742465996588824760065786246630658982476306579224663665791246635)
 (.leaf 6579624664065908247640657992466436591124764365805246649658042466486581824666200000000000658232472186582224721765834247229659452482306583724723265838247233658432472386572924623965856247251657422462526586224739965972248400658642474016586524740265867247404658662474036589224760400000000000658942476060000000000065909247641659082476406592224765465810246654659252476576581224665665930247662000000000006593224821765931248216659392482246594024822565955248240658462472416596224824766062249247659912485970000000000065992248598000000000006599324859900000000000660132486466601224864566019248652660182486516603124921666030249215660452492306604624923166049249234661312502346605024923566132250235660522492376605324923866071249592000000000006608924964266009248642661072496606610824966166119250222660372492226612825023166129250232661452505930000000000066147250595000000000006615625063966155250638661612506446609024964366162250645660912496446616925065266168250651661852512176618425121666199251231662002512326622025163900000000000662272516466616325064666239251658661752506586625125222066313253220662562522256625725222666261252230662622522316626725223666204251236662702522396620825124066273252242662742522436628225264066281252639662892526476622825164766296252654662952526536630825321566245252214663232532306632425323166329253236663302532376633725324466338253245663412536406628125263966345253644663442536436635725365666419254656)))
 (.node 2 (.node 1 (.leaf 6636925421566368254214663732542196643525522066378254224000000000006638725423300000000000663982542446639925424566402254639000000000006640525464266464255642664132546506635125365066431255216664302552156644625523166510256232664772556550000000000066487255713000000000006649725621966498256220665202562426657525724266530256648000000000006653625665400000000000665472572146654625721366566257233000000000006656825723500000000000665712572380000000000066572257239000000000006659125771266541256712665972582146659625821366635259214666342592136663925921866675260218666462592256664725922666652259231666532592326666525971000000000000666682597130000000000066671260214666702602136668126022466682260225666842602270000000000066686260229000000000006670626121366670260213667102612176671126121866717261224667182612256672826123500000000000667392617100000000000066752262222667512622216676926265466768262653667812632120000000000066784263215667832632146679726322866798263229667992636490000000000066807263703000000000006681226370800000000000668322642296683326423066836264650000000000006684826470700000000000668582652196685926522066868265229668692652306687626565400000000000668842657060000000000066889266215668882662146689726622366898266224669092666540000000000066918266705000000000006695226770400000000000669592682156692726721566986269214000000000006699126921967020270220669932692210000000000066996269224000000000006700726970067008269701)
 (.leaf 6701427021467013270213670342706986706027169867048271219670492712206707627222100000000000670832726950000000000067088272700000000000006709627321567071272216671112736970000000000067117274214671382752136712227421967100273219671492752240000000000067162276217671632762186716727622267168276223671792772146715927621467186277221672072782216719027722500000000000672232792156724528021567225279217672262792186724428021467245280215672632812186727928221967274282214672922832146727828221867279282219672952832176729628321867368287223673692872246739528922200000000000273520831842778308418527353083185277840841862735408318627784084186282050851812778008418228209085185282100851862961108848030010089480300080894783000908947930253090194306490911953078609147730787091478543231814275414218042600051013292000520132930008901421400000000000000980142230000000000000138014288001390142890017201518800000000000001860152020018501520100192015208001910152070021701523300218015234002300152490000000000000309016182000000000000033301620600505017206003410162140034201621500357016230000000000000041701629100418016292004210162950000000000000480017181000000000000049201719300491017192005000172010000000000000512017213005130172140054701724800546017247005860172870041301628700597017298004240162980061201731300000000000006210173220062201732300663018171000000000000068901819900000000000006980182080069701820700708018218009300192190077301828300582017283))
 (.node 1 (.leaf 77601828600585017286007960183060079701830700890019178000000000000089601918400000000000009250192140092601921500938019230009370192290099001928200772018282010100193020079201830201022019314010230193150110602017101105020170011200201850000000000001124020189000000000000113502020001134020199011450202100000000000001156020232011550202310115802023400942019234011590202350094301923501160020236009440192360116102023700945019237011640202400094801924001323021178013220211770134802120300000000000013750212380116202023801378021241011650202410138102124401168020244013830212460117002024601386021249011730202490138702125001174020250013900212530117702025301391021254011780202540139202125501179020255013930212560118002025601394021257011810202570139502125801182020258013960212590118302025901425021288012130202890144702131001234020310014530213160145402131701540022174015390221730156102219500000000000015620221960000000000001568022202015690222030162202226001397021260016230222610139802126101624022262013990212620167902231700000000000017660231830000000000001772023190000000000000178402320201991024202017880232060000000000001841023263016250222630184302326501627022265018440232660162802226601870023292016550222930188302330501667022305019100233920190902339102017024235020160242340204902426701845023267020500242680184602326802052024270018480232700207002428801866023288020840243020188002330202110024391000000000000223802527102053024271)
 (.leaf 225302528602067024285022750253080227602530902285025318022860253190239302622300000000000024560262860225202528502466026296022630252960246802629802265025298024690262990226602529902470026300022670253000247302630302270025303024800263100248102631102513026563025120265620262802723700000000000026310272400000000000002633027242000000000000263402724300000000000026390272480286002824802641027250028620282500265102726002872028260026630272720244202627202664027273024430262730266502727402444026274026770272860245502628502698027307026990273080270402731302483026313027570275700275602756902800028135000000000000282802817602827028175028560282440000000000002859028247028580282460286402825203095029251028650282530309602925202866028254030970292530286702825503098029254028680282560309902925502869028257031000292560288102826902660027269028980282860267602728502909028297026880272970297302856302972028562029850285750322502957402992028582029930285830307302918700000000000031050292610333703026003119029275028870282750312002927602888028276031300292860289702828503160029316000000000000320102955003202029551032210295700322202957103226029575032250295740324702964003476030640033400302630354703126303345030268033440302670335403027703121029277033550302780312202927803356030279031230292790335703028003124029280033580302810312502928103359030282031260292820336103028403128029284033620302850312802928403363030286031290292850336703029003134029290)))))
 (.node 8 (.node 4 (.node 2 (.node 1 (.leaf 337003029303137029293033710302940313902929503426030541034250305400343303054803434030549034430305580344403055903517031172000000000000353903125503756032254035560312720355503127103591031307035920313080359803131403599031315036270315360362603153503635031544038550325430365803156703657031566036670315760366803157703671031580000000000000369803212700000000000037170321690000000000003757032255037560322540377103226903770032268038130323110000000000003818032316000000000000384603253400000000000038600325480385903254703875032563038760325640392503311503924033114039300331200369103212004006033255042880342540401903326804018033267040490332980405003329904056033305000000000000412603355604125033555041660335960000000000004195034112041940341110426003418600000000000042700341970427103419804307034273043060342720435103446500000000000043580344720000000000004380034527043810345280438203452904674035529043890345360410503353504399034546041170335470441003455704411034558044350345820443603458304447034594044460345930446203460904461034608044870351140448603511304499035126045000351270450803513504509035136045410351820454003518104548035190000000000000455503519700000000000045740352530000000000004613035292046140352930462203530104932036302046290353080463003530904638035464000000000000467903553404678035533046940355490469503555004701035556050160365560471303556804712035567047330355880444103458804738035593044450345920474303559804744035599)
 (.leaf 477203564604773035647047910361120479003611104806036128051320371270481403613605140037135048430361800000000000004855036192048540361910488903625904888036258049050362750523003727404916036286049170362870495603647100000000000049570364960000000000004964036503049650365040501103655105010036550050320365720503303657305059036599050600366000506903660905068036608050890366400508803663905096036647050970366480515503715000000000000051660371730000000000005180037193051790371920519103720405190037203052180372620558103826105221037265055840382640523303727705596038276052340372780559703827705235037279055980382780523603728005599038279052370372810560003828005297037503000000000000532003752600000000000053300375360533103753705362037568053610375670537103757705372037578053750375810537603758205388037594053870375930539503760105771038602054310376400543003763905446037655054470376560545703767300000000000054950381340000000000005503038142055040381430551203815100000000000055130381520000000000005543038196055440381970555203820505962039205055910382710600203927005594038274060050392730559503827506006039274056020382820601303928105603038283060150392830561703829705618038298056250383050000000000005666038496056650384950567303850305298037504056870385180568603851705701038532057000385310571403854505339037545057260385570535003755605769038600057700386010578003861105781038612058080386390543003763905859039041058580390400587903906100000000000))
 (.node 1 (.leaf 588303906500000000000059070391370590603913605935039173059360391740594903919205950039193059660392090596503920805971039214055620382150599303926105992039260060310392990603203930006088039504060890395050609503951205682038513061520395690615103956806155039572061540395710615803957506157039574061640395810662804058206171039588061700395870618003959706181039598061970396140619603961306205039622062060396230621703963406218039635062260396430622703964406229039646062300396470626904003606268040035062720400390627104003806278040045058630390450628304005005868039050063000400670588603906806345040128063440401270635904014206360040143063690401520637004015306387040174000000000000642304022000000000000064890403100000000000006509040407065080404060652104041900000000000065330404810000000000006544040497060810394970656404051806101039518065850405390709804153906592040546065930405470659804055206135039552066050405590614303956006635040589066340405880664804060206649040603066590406130665804061206695040649066960406500670204065606701040655067730410470730004204806783041057062890400560678504105906291040058067880410620629504006206790041064067890410630680504107906806041080068090410830000000000006817041095068180410960682004109800000000000068530411330685204113206859041139068600411400686504114500000000000068680411480686704114706892041173068910411720690704119500000000000069160412080000000000006920041212069190412110696404128106963041280)
 (.leaf 696904128606970041287069820412990750804229907002041397070010413960701604141106513040411070640415040000000000007073041514076210425140708604152706574040528070910415320709004153107100041541070990415400711904156007120041561071280415690712704156807135041576071360415770714704158806634040588071520415930664004059407180041621066680406220719904164007200041641072200416610722104166207231041672072320416730723604167707237041678072590417020725804170107270041713072690417120729404204207295042043074390421950744004219607449042211000000000000747104226207470042261075430424130754404241407549042419075500424200756004243007561042431075990424900759804248907611042503076100425020762904252207628042521076400425330763904253207650042543076490425420766004255307661042554076710425640767204256507684042577082410435770768804258108245043581076900425830824704358307700042593071530415940770804260108266043602077090426020771004260307720042613077190426120772704262007728042621077440426370830204363807768042661077690426620779404268708351043687077960426890779504268807802042695072530416940780704270000000000000078190427120781804271107874043068084310440670788604308008444044080078950430890734004208807922043116079210431150793004312408489044125079670431750742304217407982043192079830431930799604321300000000000080000432170856904421608048043291086240442910807604339908077043400080810434040864704440508082043405080830434060809704342008098043421)))
 (.node 2 (.node 1 (.leaf 813804347407582042473081470434830759104248208160043496000000000000816104349700000000000081840435200818304351908191043527081900435260820504354108204043540082250435610822604356208239043575082400435760826404360008836044601082720436080827104360708277043613082760436120829004362607734042627082980436340774004263308317043653083160436520832304365908324043660083650437010780804270108367043703083660437020837504371108374043710083830437190000000000008390044006083910440070841004404608409044045084370440730843604407208439044075084380440740846404410007906043100084660441020790704310108472044108084710441070847904411508478044114085160441520795204315208540044176085410441770854404418007973043181085740442210914604522108601044268086000442670860204426908025043268086040442710802704327008605044272080290432720861404428109189045281086230442900862404429108637044395086380443960864204440008643044401086510444090922504540908655044413092290454130866604442409240045424086670444250924004542408678044436086790444370871704448008716044479087320444950930504549608749044514000000000000876104452608190043526087740445390877304453808808044573088090445740884804461308847044612088550446200885604462108944044709089430447080895304471808954044719089570450020838604400208963045008083920440080899104505508992045056089940450580899304505708999045063090000450640902104508509020045084090470451110847504411109071045135085000441360907604514009077045141)
 (.leaf 908104514500000000000090950451590852304415909121045185000000000000912604519009703046190091330451970000000000009175045267091740452660918704527909762046279091920452840976704628409205045389000000000000923204541609231045415092510454350925204543609269045460092700454610927704546809854046467092840454750928304547409298045489092970454880930604549709305045496093190455120932004551309330045523093290455220935104554409350045543093600455530935904555209381045574093820455750939304558608821044586093970455900939804559109406045599088350446000941204560508841044606094200456130941904561209435045628094360456290944204563509441045634094660456590946704566009505045698095040456970951304570609514045707095610460480956004604709565046052095660460530957104605809570046057095760460631016504706409589046076095880460750961604610310204047103096340461210963304612009651046138096520461390966804615509091045155096760461630910004516409688046175096870461740970804619500000000000097490462660917304526509787046396097880463970979404640309795046404098130464220981404642309819046428000000000000982204643109823046432098390464520000000000009859046472104650474720986904648210474047481098990465130990004651409914046528105200475270993604655010543047550099430465571055104755809946046560099470465610996504657909386045579099780465920997904659309991046605094130456060999604661009995046609100040466181000504661910023046637100220466361002904664309450045643))
 (.node 1 (.leaf 1004004665410041046655100600466740948004567310066046680100650466791008004669410079046693100960467101009504670910098046712100970467111010404671810105046719101080470020000000000010118047012000000000001013804703700000000000101420470411014104704010156047055095680460551017304707209584046071101760470750958704607410183047082095960460831020104710010202047101102070471061020604710510226047125102250471241023304713210232047131102400471391024104714010251047150096630461501028504718410286047185102950472120000000000010309047226000000000001033004726210329047261103320472640974604626310333047265097470462641033404726609748046265103440472761095004827710378047385000000000001038004738710379047386103880473951099804839610389047396103900473971041304742010414047421104200474270000000000010476047483098700464831049704750400000000000105000475070989204650610508047515105090475161051504752209909046523105410475481114204854910548047555111490485561055504756210554047561105600475671056104756810578047585105790475861060504761210604047611106180476251001104662510629047636100210466351063604764311237048644106570476641005004666410693047700106920476991077404806510775048066108020480931080104809210806048097108050480961081904811010211047110108480481391144104913910876048167108750481661088704817810888048179109040482120000000000010931048258000000000001094504827210946048273109750483251036804732410977048327103700473261098104833100000000000)
 (.leaf 1099404839211579049393109960483941158104939511016048414115940494131103004842811031048429110380484451103904844611040048447104390474461104704845411046048453110530484601105404846111064048471110650484721107204847911071048478110950485021109604850311107048514111080485151111604852311117048524111240485311112504853211134048541111330485401113804854511139048546111630485701116404857111171048578111720485791118104858811182048589111860485931177004959411195048602111960486031120304861011202048609112080486151120704861411215048622106150476221122004862711221048628112230486301122404863111228048635112270486341123604864311237048644112450486521124404865111251048658112520486591128804869511872049696112970487041188004970411309048716113080487151133104902911330049028113390490371191405003711346049044119210500441135304905111352049050113730490711078004807111385049083107920480831140504910310811048102114290491271200405012711474049172114730491711158604940011587049401115960494151159504941411604049423121810504231167504949911091048498116900495141169104951511703049527117020495261171304953711712049536117390495631173804956211773049597123540505981179804962211216048623118340496581183504965911849049673118480496721185404967811271048678118580496821185704968111863049687112800486871187004969411871049695119450500681194405006711963050086119620500851196905009211393049091119780501011140404910212013050136120120501351202505014812026050149))))
 (.node 4 (.node 2 (.node 1 (.leaf 1205005017312049050172120560501791262605117912088050219120870502181210305025900000000000121190502751212005027612127050316126940513151214705038412146050383121540503911215505039212174050416127420514151221905046311639049463122280504721164904947312243050487122440504881225005049411669049493122590505031168004950412265050509122640505081226805051212269050513122760505201227705052112325050569123240505681233005057412331050575123690506131236805061212389050633123880506321239505063912396050640124980510511192805005112508051061119380500611252905108212528051081125640511171256305111612575051128131360521271257905113212578051131125850511381258605113912638051193131990521931264605120800000000000126610512231209205022312681051268126800512671268805127512689051276126970513181325305231812699051320132540523191271205138200000000000127220513921327905239312735051408000000000001274405141712743051416127510514241218205042412757051430000000000001278405145813342052458128030514771280205147612808051482133660524821280905148313366052482128300515041226105050512854051528128530515271291505158913474052590129340516081293505160912946051620135040526201296105163512960051634129840516581298505165912989051663124190506631300005167412430050674130090516831300805168213014051688130150516891305505204613054052045130620520531363005305213066052057125050510581308505207612523051076130950520861309405208513103052094131020520931311205210313113052104)
 (.leaf 1311705210813118052109131220521131312105211213132052123137010531231314105213213709053131131480521391258605113913156052147131570521481317105216213172052163132770523911327805239213283052397138290533981328905240500000000000132900524060000000000013339052455133380524541335205246813351052467133830524991338205249813389052505128320515061339405251012837051511134050525211284705152113414052530134130525291344705256313446052562134560525721345505257113468052584140130535841350705262313506052622135190526351351805263413526052642140720536431353505265112976051650135620526781356305267913585052701130280517021359905271513042051716136310530531363005305213674053096136730530951370705312913706053128137820532590000000000013786053263137850532621379805327500000000000138110533800000000000013818053387138190533881383205340300000000000138430534141437605441513850053421138490534201385905343013313052429138710534421387205344313882053453138810534521389005346114422054461139450535161340005251613968053539139670535381397205354313427052543139790535501398005355113998053569134530525691402805359913483052599140390536101404005361114043053614134980526141404405361513498052614140710536421407205364314076053647140750536461408505365614617054656141010536721355505267114132053703141330537041417005405213629053051141820540641418105406314188054070147220550691419405407613653053075142110540931421005409214228054110142290541111423705411914236054118))
 (.node 1 (.leaf 1424205412414777055124142520541341478605513314332054272143330542731434105437600000000000143530543881435405438914373054412149160554121438605442514387054426144230544621442205446114436054475144350544741454905458814548054587145570545961402405359514595054634145940546331460705464614075053646146130546521461405465314621054660146220546611462905466814097053668146440546831464505468414652054691146530546921465705469614656054695146700547091521305571014720055067147210550681473205507914197054079147360550831473505508214750055097147490550961475605510314757055104147640551111476505511214795055142147940551411480005514714801055148148060551531480705515414809055156142740541561482205516914823055170148600552621485905526114865055267153950562671488105537200000000000148960553871489705538814938055434154650564341494105543714942055438149440554401494305543914985055481149860554821499205548814449054488150110555071553905650815018055514150170555131502605552215553056522150360555321449305453215059055555155860565551506805556415067055563151110556071511205560815122055618145790546181512405562015123055619151300556261458805462715141055637151400556361518505568115711056680151980556951519705569415223056030157440570291525005605715251056058152540560611577505706015284056091152830560901529005609715289056096153390561461533805614515357056164158800571651536005616715361056168153710562040000000000015391056263153900562621540205627400000000000)
 (.leaf 1540905637115408056370154160563781541705637915419056381159340573821543305640200000000000154520564211596605742115457056426154580564271546205643115975057431155020564711550105647015506056475155050564741552705649615528056497155320565011553305650215549056518155480565171555505652416067057523155570565261606905752515596056565155950565641560205657115074055570156260565951509905559515631056600161450576011568305665216197057653156920566611516505566115697056666151700556661572505669415724056693157370567060000000000015738056707000000000001576005704515238056045157640570491576305704815771057056162710580561579005707515789057074157960570811527405608115816057101163160581011582205710715301056108158510571361635005813515877057162158780571631589505721115894057210159140572701591305726915925057373159240573721593705738516443058385159390573871594005738815952057407159510574061595805741316465058413159690574251647405842515981057437154690564381599105744715990057446160390574951552505649416071057527160700575261608105753716587058538160990575551558505655416116057572161170575731612905758515616056585161730576291617405763016178057634161770576331618005763616684058635161850576411669005864116203057659156900566591623505769816738058698162470580321624605803116264058049167680590481629905808416804059084163030580881630405808916309058094168140590941631505810016820059100163180581031682305910316333058118163340581191635705814216356058141)))
 (.node 2 (.node 1 (.leaf 1636405814915864057149163740581591637505816016390058205163890582041642805837000000000000164460583881644705838916493058444159880574441650705845816506058457165100584611650905846016522058473170200594731652505847616524058475165300584811702905948216533058484170320594851653605848717035059488165390584901653805848916560058511160550575111658205853316583058534165960585471659505854616612058563171100595631662605857716121057577166420585931714005959316661058612166620586131667705862816678058629166940586451719105964416726058686000000000001673305869316732058692167400587001673905869916770059050172580600501681105909116305058090168300591101730706011116843059123168440591241684905912916345058130168540591341685305913316875059155163700581551689505920816894059207169000592131690105921416903059216173800602171690705922000000000000169220593710000000000016929059378174040603791693005937917405060380169310593801740506038016973059426169720594251698205943517452060436169870594401745506043916999059452170000594531701305946617014059467170490595021655105850217056059509165570585081707605952917075059528171000595531710105955417115059568171140595671711905957217120059573171300595831713105958417153059606171540596071719305964617662060646171940596471766406064817196059649176650606491719705965017665060649172010596541720205965517213059666176820606661721605966900000000000172440600360000000000017252060044172530600451727606008000000000000)
 (.leaf 1729106009516814059094172970601011729806010217317060121173160601201733806014217337060141173530601571735406015817403060378178440613781741706039217859061393174410604251697105942417449060433178940614331748606047017017059470174970604811794306148217507060491175080604921753506051917534060518175540605381708505953817555060539175560605401757706056118021061560175980605821759906058317660060644181060616451766906065317670060654176740606580000000000017678060662000000000001778806115017787061149178060611681780706116917815061209178140612081781906121317820061214178260612200000000000017851061385182990623851785306138718300062386178580613921785906139317892061431183390624321790806144718355062448179170614561836306245617923061462179220614611792606146517481060465179420614811794306148217954061493175090604931796906150817968061507179860615251798506152418008061547184530625461802906156818028061567180480615871760406058818054061593185000625931805806159717614060598180680616071806906160818080061619180810616201809906163818098061637181430620390000000000018151062047181500620461816906209418168062093181790621041774206110418180062105177420611041819406211918195062120182020621271862306312818218062143177810611431823506216018236062161182560622091825506220818274062229182730622281830406239018305062391183230624161787706141618326062419178790614181835906245218358062451183770624701837806247118381062474183800624731838806248118389062482))
 (.node 1 (.leaf 1840206249518403062496184060624991840506249818413062506184120625051845706255018458062551184610625541846006255318490062583184910625841850606259918060061599185480626411810306164218556062679000000000001856906304500000000000186070631121818706211218612063117186110631161862606313118627063132186620631671866306316818693063226000000000001870106323400000000000187150633750000000000018736063408000000000001874206341418321062414187490634211875006342218756063428187550634271875906343118338062431187930634651879206346418810063482188110634831884106351318840063512188690635411886806354018871063543184510625441890106357318480062573189040635761848306257618937063609189360636081895506362718954063626189730636781855506267818996064092000000000001900606410219005064101190190641151902006411619026064122190270641231905106414718643063148190550641511905606415219065064161190660641621907706417319078064174190860642121908706421319146064411195660654101919106445619192064457192180644831921906448419241064506192400645051925506452018849063521192590645241926006452519269064534192680645331929306455818885063557192960645611888906356119315064580189070635791931806458319319064584193420646071893506360719369064634193680646331938006467718971063676193870646840000000000019423065108194240651091946706515219468065153194940651790000000000019506065217195070652181952406523519525065236195540653920000000000019560065403000000000001957306541719572065416)
 (.leaf 1957806542219158064423195900654341959106543519630065474192080644731963406547819212064477196650655091966406550819677065521192560645211970506554919284064549197390655831974006558419753065597197540655981977506561919355064620198080656850000000000019826066097198250660961984406611519845066116198470661182026306711919853066124194400651251987006614119869066140198970661681948406516919919066210199180662091992606621719507065218199340662251951406522519936066227199350662261994406623519945066236199660663850000000000020001066427204150674272003606646220035066461200600664862006106648720080066506200810665072008906651520088066514201010665271968406552820110066536201090665352011606654219697065541201430665692014406657020185066611197680656122019506662120196066622201970666231977806562220201066627197820656262020406663019785065629202140666742021306667320246067102202450671012024906710520248067104202740671302027506713120282067138198670661382033406720820333067207203480672221993106622220361067235203620672362044406745620861068456204660674782046506747720472067484204730674852048106749320480067492204940675062049506750720504067516205030675152054106755320542067554205560675682055506756720571067583205700675822057606758820577067589205840675962100006859520602067614206030676152066806811020255067111206750681172026206711820701068143211120691442071906816120720068162207280681702072906817120735068177207340681762075706821320756068212)))))))))
 (.node 128 (.node 64 (.node 32 (.node 16 (.node 8 (.node 4 (.node 2 (.node 1 (.leaf 2077306822920774068230207810682372078206823820828068423208270684222083906843420840068435208440684392042806744020889068484204730674852090106849620484067496209100685052091106850620925068520209240685192094006853520523067535209560685512053906755120960068555205440675562102006861520604067616210400686710000000000021080069112206700681122108106911320670068112210900691222109106912321093069125206830681252109606912821097069129211140691462070506814721116069148211170691492117706921621176069215211970692362119806923721283069451208570684522128806945621289069457212980694662087106846621307069475208800684752130906947720881068476213150694832131606948421337069505000000000002135206952021351069519213710695392137206954021380069548213790695472140606957421407069575214180695862141906958721426069594214250695932143706960521438069606214410696092188307061021468069672214670696712150007010521073069105215020701072107406910621504070109215050701102151807012321091069123215320701372197407113721537070142215380701432154807015321549070154215550701602155607016121562070167215630701682159307020200000000000216050702142160407021321612070221216110702202162607023521627070236216750704022167407040121685070412216840704112169807042521697070424217030704302170407043121724070451217250704522174607047321745070472217930705202179207051921804070531213620695302185407058122302071580218710705982187207059921874070601218750706022189307062021892070619)
 (.leaf 2189907062621900070627219100706710000000000021916070677214740696782196807113121526070131220130711762201407117722034071202220330712012204107120922040071208220460712142204507121322063071231220620712302206907123722518072238221390714172258907241722153071431221540714322216907144721720070447221810714592218007145822203071481222040714822221607149400000000000222210714990000000000022233071511222320715102224007151822689072517222650715432226407154222269071547222680715462228207156022283071561223100715882231107158922347071625223480716262236407167100000000000223930721082284207310922403072118224020721172241007212521963071126224130721282196507112822444072159228920731592245507217022007071170224660721812201907118222468072183224690721842247407218922475072190224800721950000000000022497072217224960722162250707222722059071227225600723880000000000022584072412225830724112259407242223053073422226040724322215407143222609072437230690734382261507244322165071443226340724622263307246122636072464226350724632264107246922192071470226550724832265607248422690072518231480735172270807253622707072535227220725502272107254922729072557222790715572274407257222743072571227740726022277507260322783072611227840726122281507267100000000000228230726790000000000022846073113228470731142289707316422896073163229050731722290607317322933073202229320732012293707320622486072206229430732122294207321122953073222225020722222298407334323440074343))
 (.node 1 (.leaf 2299707335822543072358230250733942302407339323036073405230350734042308107345022622072450231060734752310507347423114073483231150734842313507350423136073505231510735202315007351923163073532231620735312320907357823666074577232140735832321507358423223073592232220735912322807359723229073598232360736052323707360623246073615237040746152325707362623714074625232640736332280507263323295074106237550751052331707412823318074129233240741352378607513623340074151228850731522335807416923357074168233650741762290907317623369074180233700741812338807420200000000000233940742082339307420723416074230229610732302342907424322974073243234340742480000000000023455074360000000000002346807437923467074378235120744232397307542223516074427239780754272352807443923989075438235540744652355307446423566074477240290754782362707453823628074539236430745542364207455323648074559236490745602365207456323653074564237090746202417007561923721074632241840756332373807467423737074673237560751060000000000023763075113242220761142377907512923318074129237810751312378207513223789075139237900751402380207515223341074152238080751582334707415823842075192238430751932386007521423859075213238830752372388407523823894075248000000000002392507537423463074374239380753872393707538623948075397239470753962398707543623525074436239950754442445407644423998075447239970754462401007545924009075458240340754832357307448424040075489235780744892410507555424104075553)
 (.leaf 2413107558024130075579241480755972414907559824155075604241540756032415807560724159075608241760756252463407662424190075639246490766392422707611924679077119242510761432425207614424264076156247160771562427607616824275076167242790761712382107517124288076180242890761812431107620424310076203243280762212478107722124330076223247830772232434307623624796077236243490762422480207724224369076355000000000002438807637823929075378244110764012441207640224420076410244210764112444207643224441076431244590764492490707744924468076458240090754582448407647424483076473245150765052405607550524518076508240600755092451907650924060075509245320765222453307652324537076527245360765262457407656424575076565245920765822503907758124629076619246280766182463607662625083077625246560766460000000000024685077125242320761242469107713125135078132247370771772518007817724757077197247580771982477407721424773077213247870772272523007822724790077230252330782302479207723224793077233248040772440000000000024818077359243740763602486307740524414076404248650774072441707640724869077411244220764122487707741924878077420248980774402533907844024941077483000000000002496107750324960077502249680775102496907751124999077541250000775422501507755725014077556250510775932505007759225087077629250880776302509107763325092077634251110781080000000000025124078121251230781202515207814925153078150251660781632516507816225183078180251840781812519107818825192078189)))
 (.node 2 (.node 1 (.leaf 2520307820024760077200252110782082521007820725220078217256620792172522407822125666079221252270782242566907922425229078226256710792262523807823525680079235252660783672526707836825294078395248520773942531107841224870077412253180784192487807742025328078429257620794282537207847325371078472253770784782493507747725388078489253870784882539407849524953077495254120785132541307851425423078524258570795232543407853524993077535254540785552545307855425480078581254790785802548207858325042077584255100786112594407961025517078618255160786172558707914200000000000256220791772562107917625634079189256350791902568307923800000000000257210793872572207938825723079389257220793882573407940025735079401257490794152531407841525763079429261900804292578607945225785079451257900794562579107945725804079470253690784702582507949125824079490258340795002583307949925849079515000000000002586407953025865079531258690795352586807953425881079547258800795462590107956725902079568259260795922549007859125931079597259320795982593507960125934079600259420796082637008060925943079609263710806102595707962325521078622259700796362596907963525973079639264000806392599308011526421081116260060801282643408112926012080134260130801352602408014625592079147260330801552646008115526035080157264630811582606108018326488081183260710801932563807919326087080209260860802082609608021826095080217261300803692570307936926141080380261400803792614908038825722079388)
 (.leaf 2616608040525739079405261820804212662008142226186080425266230814252619308043226631081433261960804352663308143526209080448266460814482621708045626218080457262590804982583207949826269080508258410795072628208052125855079521263140805532631308055226318080557263190805582632208056126323080562263340805732633308057226368080607268050816072639008062926827081629264280811232686208212326441081136268760821372645808115326459081154264990811942607308019526500081195260740801962650108119626074080196265080812032608008020226519081214265200812152652508122026960082221265420812430000000000026549081250000000000002656408136626563081365265700813722613308037226575081377261370803762659408139627029082395266070814092704408241026627081429270620824282665108145300000000000266580814602709408246026659081461270950824612666408146626663081465266680814702666708146926678081480271140824802668208148427118082484266880814902668708148926703081505267020815042671708151926279080518267290815312672808153026769081571263320805712678508158726786081588267920815942679308159526799081601267980816002681308161526814081616268240816262726008262626833081635268320816342685908212027288083120268840821452731308314526902082163269030821642693808219926503081198269530822142695408221526978082248265480812492700108236727000082366270140823802701508238127028082394270270823932705108241727052082418270790824452751008344627139082505271380825042717308253927174082540))
 (.node 1 (.leaf 2718308254927182082548271900825562719108255727198082564267620815642721508258127216082582272220825880000000000027230082596267930815952723108259727232082598272460826122724508261127259082625276900836262727408264000000000000273040831362730508313727336083168273350831672734008317226911082172273440831762734308317527349083181277800841822735508318727785084187273740832062694408220527380083212278100842122739408322600000000000274300833662742908336527461083397278910843972747008340627469083405274760834122747708341327495083431270650824312753308346927532083468275370834732796608447227551083487275500834862755908349527989084495275890835252759008352627613083549271820825482762408356027194082560276630835992723308259927729084131281550851312776008416227761084163278030842052780208420427849084355000000000002785308435928271085358278730843792787208437827880084386274490833852792008442628339085426279560844622837508546228011084517284310855182801308451928432085519280580845642805908456528067084573280660845722809108459728090084596281010846072852008560728104084610281030846092811108461728112084618281270846332812608463228150085126277230841252819608517228197085173282240852002822508520128232085208286520862082824608522228247085223282530852290000000000028284085371287030863702828808537528289085376282960853832787808438428303085390287240863912830708539427889084395283190854062790008440628337085424287560864232835008543700000000000)
 (.leaf 2835908544628358085445283700854572879108645828371085458287910864582837208545928792086459283910854782880508647728406085493284050854922841208549928411085498284210855082883708650928424085511288390865112845008553728449085536284800855672806108456728489085576284900855772850308559028085084591285160856032893108660328519085606289350866072852108560828520085607285760861322857508613128600086156286010861572860608616229022087163286190861752862008617628697086364282770853642872108638828722086389287290863962873008639728735086402287340864012874608641329159087414287550864220000000000028771086438287700864372877708644428776086443287850864522919408745328790086457287910864582879308646000000000000287980864702879708646928801086473292050874722881208648428811086483288260864982923108749828830086502292340875012888208655428881086553288930865652847808556528918086590289190865912894208661428941086613289530866252895408662628960086632289590866312897808711928979087120289870871282898608712729001087142285870861432901108715228596086152290160871572901708715829025087166286100861662905508719629054087195290570871982945908819729106087361286940863612911108736628699086366291130873682870008636729117087372291160873712913508739029538088391291520874072955308840629174087430000000000002917808743729177087436291840874432877608644329192087451295900884522919308745229591088453291950874542959308845529198087457000000000002921408748129612088481))))
 (.node 4 (.node 2 (.node 1 (.leaf 2922408749129623088492292400875072963808850729248087515288430865152925208751929251087518292550875222885008652229258087525292570875242926408753129662088531292740875412927308754029283087550000000000002929108755829690088559293170875840000000000029336087603297350886042938708812528984087125293970881352939808813629401088139294020881402940908814729007087148294180881562941908815729436088174298330891742944608818429843089184294600881982945908819729477088215290730872142950508835829504088357295290883822992608938329557088410295560884092957308843500000000000295830884452958408844629668088537296670885362967508854429674088543296880885572968908855829697088566296980885672970008856900000000000297280885972972708859629760088629297590886282979108913229790089131297950891362939908813729814089155298150891562985808919929857089198298650892062986608920729881089222302810902222991308937030310090369299190893762992008937729943089401303410904013000208947230001089471300090894793001008948030014089484300130894833004108951129641088510300450895152964508851430064089534300630895333009108956100000000000301040895740000000000030111089581301100895803012208959230123089593301250895952972708859630132089602305290906033014308961330142089612301510896213015208962230154089624301550896253017809011929778089119302100901513021109015230227090168302280901693023609017730235090176302390901803063409118030258090199298570891983027209021329872089213)
 (.leaf 3027909022030674091220303030903623030209036130304090363306950913623033209039229935089393303540904143035509041530372090440299770894393037509044330374090442303920904663039309046730396090470299990894693040809048230011089481304120904863041109048530449090523304500905243045409052830453090527304570905313006008953030478090552000000000003050809058200000000000305180905923012308959330554090628305530906273056009064300000000000305670911133017209011330571091117301760901173063709118330243090184306580912043065909120530669091215310560922153067109121730672091218307610914473038009044830765091451307660914523084609153730462090536308710915623087209156330885091576312680925773095309211230952092111309690921283096809212730988092147306010911473099709215630998092157310070921663138809316631048092207310470922063107909235700000000000310840923623069509136231086092364310850923633109209237031091092369311000923800000000000031116092398307280913983112109240331120092402311720924813079009148131173092482307910914823117909248830796091487311830924923080009149131216092525312150925243124109255000000000000312510925603125009255931288092597316620935983129109260030910091601312990926083167109360731308092617309270916183131409262331687093623313590931373097709213631365093143309840921433137309315131374093152314140931923103309219231486093394000000000003150009340831126092408315190934483114609244831524093453315250934543153909347500000000000))
 (.node 1 (.leaf 3155709349331184092493315600934963155909349531567093503311930925023159009352631589093525316600935963166109359731698093643316970936423170809411100000000000317680941713213009517131778094181321400951813178409418731783094186317850941883140909318731801094204314260932043181409421731815094218318980944683153209346831925094495315580934943195209452231587093523319580945283232209552931967094537319680945383197509454531974094544319850945553198609455632000094570323630955703200609457631639093575320430946133167709361332044094614316770936133204909461932050094620320670946470000000000032074095115324270961153208509512632084095125320960951373209509513632105095146317430941463211309515431752094155321230951643247709616532127095168324790961673213309517432487096175321340951753248809617632146095187321450951863215409519532153095194321660952073251909620732171095212325240962123218109534432180095343321920953553219309535632212095385325600963843222209540032221095399322320954103223309541132244095444322430954433226609547332267095474322680954753262109647432291095498322900954973230709551432306095513323410955483234009554732348095555323490955563235509556200000000000323650955720000000000032375095582320120945823238509559232386095593323910955983202909459932398095605327520966053245209614032800097140324610961493210909515032471096159324720961603247409616232823097163324900961783249109617932543096352325420963513258809642400000000000)
 (.leaf 3260009644632601096447326110964570000000000032633096486322780954853264609649933008097498326550965083265409650732666096519330300975203267109652432672096525326750965283267609652932684096537326850965383269509654832694096547327480966013274909660232753096606331150976053277609711633138098115327930971333279409713432813097153328140971543283509717532836097176328440971843284309718332851097191328520971923286009720033223098200328650972053286609720632918097398000000000003292409740432925097405329260974063328309840732971097453333280984533297809746800000000000329850974753262109647432991097481326270964803302309751333022097512330330975233303409752433057097547330560975463306709755732704096557331160976063311509760533120097610334820986113312509761533124097614331490981263314809812533155098132000000000003316609814333165098142332100981873320909818633232098209335950992103327409839800000000000332850984090000000000033306098431333070984323331809844332961097443333590984880000000000033365098494333660984953337609850533375098504333840985133338509851433399098528334000985293341309854233412098541334330985620000000000033437098566334380985673345309858233810099582334610985903381809959033464098593338210995933351009912533148098125335410991563354209915733551099166339051001663356509918033564099179335810991963393510019633585099200332220981993360909935333963100352336390994050000000000033667099435336660994343367809944633679099447)))
 (.node 2 (.node 1 (.leaf 3372909950133728099500337470995193374809952033753099525337540995263378109955333780099552337840995560000000000033793099565000000000003388010014133525099140338841001453388310014433889100150335350991503389510015633542099157338971001583389810015933901100162342491011633390910017034256101170339121001733425910117333913100174342601011743397010035900000000000340011004173364809941634006100422340071004233401210042833660099428340171004333436010143234023100439340221004383405210047434051100473340601004823405910048134088100510344321015113409110051334092100514341341005563413510055734164100586341651005873418610061000000000000342081011223386110012234218101132000000000003428010119434617102193342901012043429110120534310101352346461023513431510135734316101358343511014233400710042334372101444343711014433437710144934378101450343831014553403910045534410101489344091014883441710149634416101495344241015033442310150234471101550341271005493451610159500000000000345601021363422210113634566102142342281011423456710214334228101142345821021583458310215934610102186346091021853468110241534680102414346931024273469210242634748102492347471024913477310251734438101517347751025193444010151934776102520344411015203478510252934451101530347861025303445210153134806102550348051025493481610256034481101560348221025663448810156734842102586351701035863484610259034847102591348551026113485410261034892103139352251041393490210314934903103150)
 (.leaf 3491210315934913103160349211031683525510416934924103171349251031723493110317834932103179349331031803526610418034976103352349751033513498210335800000000000349961034020000000000035046103453350451034523505510347135054103470350911035073509010350635099103515347721025163510110351734774102518351081035243478110252535114103530347871025313512210353835123103539351321035483513110354735163103579354941045803519810364200000000000352151041290000000000035239104153349061031533527610419034943103190352881042023528910420335340104417353391044163534910442600000000000353541044313568210543035364104441353651044423538810447435387104473353951044813506410348035401104487350711034873540910449535740105494354181045043541710450335425104511354261045123543510452135106103522354391045253510910352535440104526351101035263546410455000000000000354751045613547610456235498104584358301055843550410459035505104591355201046143551910461335526104637000000000003552710463800000000000355641051483590310614835571105155355721051563560310518735602105186356141051983528410419835685105433356841054323569910544736049106448357151054693571410546835747105501357461055003578010553435448104534357851055393545210453835791105545000000000003579410554835795105549358001055543579910555335803105557358041055583581710557135485104571358401055943550910459535844105598000000000003587110611600000000000358741061193553410511835885106130362371071313588610613136237107131))
 (.node 1 (.leaf 3589810614335897106142359121061573591310615835919106164359201061653594510619035944106189359571062023595810620335995106377359961063783604210644136366107441360531064523570310545136066106466000000000003607310647336072106472360891064893573610549036091106491357371054913610410650436103106503361231065233576910552336129106529361281065283614510654535792105546362301071240000000000036274107168365971081693628010717436281107175362841071783628310717736299107193366201081923638110745636380107455364011074763640010747536405107480364061074813642910750436746108503364331075083675110850836439107514364381075133644210751736441107516364441075193611910651936489107564364901075653650310757836821108578365111075863651210758736555108127365541081263657910815136902109151366071081793693010917936641108359000000000003664710836536323107365366621083803666310838136678108435000000000003669210844936691108448367021084593670310846036728108485364101074853673610849336418107493367401084973642210749736792108549364741075493679910855636480107555368181085753715410957536836108593371721095933684510861300000000000368661086403686710864136872109121365481081203687810912700000000000369011091503723511015036911109160372461101613691310916236914109163369311091803693010917936950109199372851102003695310920237287110202369551092043695610920536957109206000000000003701110943236675108432370301094513735711045137067109488370661094873711210953300000000000)
 (.leaf 3712410954537125109546371641095853749211058637167109588368321085893718310961637184109617372031101180000000000037225110140372241101393724111015637242110157372831101983760911119837348110442376651114423735211044637669111446373651104593736611046037383110477373821104763740411049837405110499374091105033772611150337440110534000000000003747211056637473110567374771105713747811057237502110596378191115963750311059737820111597375201106300000000000037547111136378571121363760011118937599111188376081111973791911219837622111349372941103483762711135437300110354376331113603763411136137641111368376421113693765011137737649111376376601114370000000000037662111439376631114403766411144137665111442376771114543799111245437690111467376911114683770211147937703111480377121114893771111148837730111507380441125073773911151637738111515377671115443776811154537780111557377811115583780511158237806111583378591121383785811213737877112156381911131573788311216237574111163378951121743820811317437900112179382131131793793011234600000000000379551123713764511137238030112493380291124923805111251437737111514380551125183805411251738082112545377681115453810511256838106112569381241125873812511258838130112593384431135943820511317138206113172382181131843852711418438223113189385321141893823011319638540114197382471133523793611235238269113374379581123743827711338200000000000382831134340000000000038320113471380081124713833311348438654114483)))))
 (.node 8 (.node 4 (.node 2 (.node 1 (.leaf 3833511348638657114486383501135013867211450138361113512383601135113838811353900000000000384051135563872711455638420113571387421145713842411357538425113576384311135823875411458338438113589387601145893844111359238442113593384801141373817011313638481114138381721131383848411414138483114140384901141470000000000038499114156385001141573850511416238506114163385091141663882511516738526114183385271141843854211419900000000000385731143683857411436938577114372382671133723861111444038289113440386151144443861611444538628114457389491154573863911446838640114469386671144963898711549538704114533000000000003872211455139044115552387331145623905511556338814115156388151151573882911517139146116172388341151763915011617638851115193391681161943885211519439169116195388541151963917111619738863115345385491143443888211536439196116364388951153773858211437738923115431392411164313893511544338936115444389551154633863411446338968115476389671154753897811548639296116486389841154923930111649139002115510393191165093901411552238692114521390321155403903111553939039115547393571165473904311555139362116552390761155843939411658439081115589390821155903910711613339423117133391241161503912311614939153116179394701171803916511619139481117191391741163423917311634139183116351394991173513918611635439502117354391891163573918811635639193116361395101173623919511636339511117363391971163653951311736539201116369392021163703921011637839209116377)
 (.leaf 3922011638839221116389392521164423925311644339322116512393211165113933611652600000000000393441165340000000000039345116535393461165363937111656139703117561393771165673970911756739433117143394341171443944911715939134116160394541171643978511816539460117170394611171713947211718239802118182395071173593983711835939528117380398581183803954011739200000000000395411173930000000000039576117434399121184353958511744339586117444395941174523992911845239601117459396001174583960311746139270116460396131174713928011647039618117476399531184763963411749239633117491396401174983930911649939663117521396621175203967511753300000000000396861175443935511654539711117569397121175703971611757440050118573397441176023974511760339756118136397551181353976111814140099119141397821181623978311816339805118185401431191853981711819700000000000398251183474016411934839863118385398641183863987411839600000000000398811184044022011940439905118428395691174273990711843039572117430399211184443958711744539944118467396081174663994811847139947118470399561184794029511947939958118481399591184823998611850940324119508400641185874006511858840103119145397651181454014611918800000000000401511191934048312019440154119196401551191974015711934140156119340401771193614051012036240189119373398511183734019011937439851118373401911193753985211837440193119377398551183774019711938140196119380402231194074022211940640232119416402311194154026011944439922118445))
 (.node 1 (.leaf 4027611946040275119459403081194924063712049140330119514406601205144033211951640662120516403591195434035811954240365119549403661195504039611958040397119581404601201644046112016540469120173000000000004050812036040826121360405141203664051512036740518120370401861193704052512037740192119376405281203804019611938040539120391402071193914055012040240218119402405571204090000000000040584120436402531194374061212046640613120467406291204834062812048240642120496406411204954065612051040971121509406721205264067312052740681120535409971215354069412054840695120549407151205694071612057040728120582407291205834076112113940760121138407651211434076412114240820121354408211213554083812137240520120372408541213884053612038840864121398405471203994087512140940876121410408951214290000000000040914121448409151214494092312146100000000000409391214774062412047840972121510409711215094098212152041296122520409851215234098412152241018121556413321225564105312159141054121592410551215934105412159241061121599407451205994110012216241101122163411021221644110312216541134122354411351223554114012236041458123359411511223714083712137141174122394408601213944125112247541570123475412541224784094012147841287122511412861225104129912252341298122522413371225614165612356141355122579413561225804137912260300000000000414141231614141512316241436123337414351233364145212335341453123354414601233614145912336041474123375414731233744149512339600000000000)
 (.leaf 4151912342041520123421415321234334121212243241536123437415371234384155512345641556123457415611234664156012346541566123471418781244714158012348541581123486415841234894158312348841602123507412821225064161312351841926124519416291235344194112453441642123547416431235484164612355141957124550416671235724166612357141687123592413681225924168812359341369122593416951236004169612360141702124131000000000004171812414841402123149417271241574172812415841760124347417591243464176212434942066125349417651243524176612435341773124360420771253604179412438141795124382418041243914180312439041812124399418131244004181912440641818124405418531244414154112344241857124445418581244464186012444841861124449418661244544186712445541909124502415971235024191112450441598123503419231245164222612551741930124523422331255244193512452842236125527419601245534195912455241989124582416771235824201912514142317126140420261251484171912414942036125158420371251594204812519842346126198420601253434175612434342089125372417851243724211512539842116125399421221254054212112540442129125412418251244124213512541842134125417421781254694248112647042182125473000000000004218812547942187125478421931254844219412548542200125491425021264914224212553342545126534422511255424255212654142265125556425671265564227312556442575126564423211261444232012614342329126152000000000004235712633742356126336423751263554267212735542387126367423861263664239512637542394126374)))
 (.node 2 (.node 1 (.leaf 4239712637742094125377423981263784209412537742424126404421211254044243112641142127125410424641264474246512644842469126452424701264534249812648742196125487425331265224282712752342548126537428411275374256312655242856127552425661265554285912755542578126567422761255674258312657242281125572425881265774258912657842606126595426071265964264812733100000000000426811273644268012736342704127387427051273884271512739842716127399427491274354275012743642757127443430521284444276612745242767127453427691274554277012745642789127485430851284854283512753143132128532428431275394313912853942886127582428871275834288912758542596126585428991275954260712659642912128143432071291424291812814943215129150429271281584292812815942973128362429721283614297412836342680127363429831283724268812737142991128380426971273804299712838642998128387430511284434305212844443064128456430651284574306712845943068128460430821284824337512948243092128492000000000004309412849443387129494430971284974339012949743105128505431041285044311612851642821127517431231285234312412852443131128531434251295324313512853543428129535431701285704317112857143178128578434711295784319012859043189128589432101291454350213014543242129334432411293334325612934843255129347432611293534355113035443278129370429811283704330812940043011128400433191294114302112841043321129413433221294144334112943743044128436433481294444305312844543352129448430551284474340312951043110128510)
 (.leaf 4345812956543165128565435111301544351013015343512130155432201291554352013016343521130164435301303334324112933343535130338438141313394353613033943814131339435831303864358413038743588130391433001293924359213039543593130396436551304610000000000043682130513434061295134368813051943689130520437461305774374713057843762130593440441315934378013114500000000000437971311624379813116343813131338438141313394381613134144097132340438271313524382613135143832131357435541303574383513136043556130359438501313754385113137643857131382435781303814386213138743863131388438731313984359513039843891131416438921314174390113142643900131425439121314400000000000043925131453439261314544396113151043680130511439631315124368113051243967131516436851305164397313152243974131523439761315254369513052643989131538442751325394399513154443713130544440141315634429913256344022131571443081325724403213158144318132582440371315864432213258644043131592440441315934404613159544047131596440881323314380513133044106132349443881333494411113235444392133353441241323674412313236644166132409438841314094420413245144486133452442691325334455013353444272132536445521335364428313254744563133547442911325554429013255444302132566440181315674434513315144344133150443841333454438313334444407133368446881343674441913338044701134380444391334004444013340144445133406444441334054447013343100000000000444741334400000000000044491133457444921334584450413347044503133469))
 (.node 1 (.leaf 4451813350244517133501445211335054480313450444523133507448051345064456613355044850134551445781335624486213456344605133589446041335884462813415900000000000446311341624463213416344648134327000000000004465513433400000000000446831343624468213436144714134393444321333934473513441445022135415447601344430000000000044767134450447681344514481913452044818134519448291345304511513553044833134534448341345354485313455445139135554448981351480000000000044938135331452221363314494213533544943135336449461353394466113434044963135356000000000004497413536744973135366449801353734526513637445002135395447161343954502513541844739134418450341354274474713442645053135450447681344514507113546845356136469451101355254539413652545118135533451191355344512213553745406136537451301355454541213654545155135570454371365704515913557444874134575451851361514518413615045186136152454631371524519513616145196136162452171363260000000000045238136347455181373484525613636545255136364452631363724554213737245274136383455531373834527813638745558137388452791363884555813738845297136406450141354074529813640745014135407453041364134558413741445331136444450471354444534113645445342136455453661364790000000000045389136520456661375194539213652345393136524454071365380000000000045408136539000000000004546413715345463137152454711371604547213716145479137181000000000004552713735745791138356455321373624553113736145555137385458201383854557013740045836138401)
 (.leaf 4557313740345294136403456121374454561313744645621137454456221374554564313747645908138476456711375244539313652445699137560457001375614570313756445704137565457301381544572913815345733138157459881391574577313833845509137339457741383394550913733945775138340455111373414577613834145511137341457801383454578113834645796138361455311373614580613837146058139370458121383774581113837645816138381458171383824582413838945823138388458491384144585013841545866138431456011374314588213845046134139450458991384674590013846845907138475461591394754592113851245659137512459531385544620013955445955138556462021395564596713856846215139569459721385730000000000045989139158459881391574602013933246274140332460451393574629914035746057139369463111403694607813939046331140389460981394104609913941146114139426458611384264613913945545887138455461741395174642514051846192139546000000000004625314018346254140184462881403464603513934746295140353465381413534630314036146546141361463521404104659614141146359140417463601404184638114044546129139445464021404664615013946646409140473464101404744641714051046660141511464201405134666314151446423140516464241405174646414057046465140571464771411524671314215146494141178000000000004650014118400000000000465021412140000000000046520141335465191413344653614135146537141352465651413804656614138146572141387468231423884657814139346828142393465801413954683014239546584141399468341423994661414142946613141428))))
 (.node 4 (.node 2 (.node 1 (.leaf 4662514144746383140447466281414504638614045046634141456463921404564663714145946395140459466711415224667014152146685141552469351425524671714215546718142156467971423624679614236146802142367470591433674680314236847060143368468061423714706314337146810142375468091423744683614240147093143401468391424044709514340346852142417468531424184689214246346642141464469231425234717914352346953142570469541425714697014316247223144161469751431674697614316846985143177467361421774699014318246991143183470391433474678314234847052143360472901443604708414339247322144392470971434054709614340447123143431473601444304714714346046889142460471491434624689114246247166143510474021445104717514351946919142519471841435280000000000047194143557474271445574720214356547203143566472321441704697914317147245144183000000000004727014434047494145340472721443424749614534247324144394475481453944732914439947552145398473341444044709514340347375144450473761444514738114445647382144457473901444654715214346547403144511476251455124740714451547408144516474281445584764814555847429144559476491455594743114456147430144560474461446034721514360347482145328474811453274749214533847491145337474951453414771814634147498145344477201463434751314535947736146359475181453644774114636447525145371475241453704753414538047535145381475461453924754714539347555145401475541454004756414541047565145411476001454524737814445347673146160000000000004772914635247730146353)
 (.leaf 4773814636147737146360477511463744752814537447785146408477861464094784514650947846146510478971471640000000000047902147169000000000004790714717447687146174479111471784769114617847912147179476911461784792814733347927147332479311473364814414833647939147344477201463434794314734848156148348479521473574795314735847963147368481751483674797314737848186148378479831473884798414738947996147401477771464004801814742347800146423480521474634805314746448078147552000000000004808614756248297148562480891475654809014756648122148182000000000004812414818400000000000481281481880000000000048180148372483881493724819914839147987147392482081484004820714839948213148405482141484064824214843448029147434482511484464825014844548255148450482561484514831314860048102147600483471493314834614933048354149338485581503374838414936848588150367484161494004841514939948428149412482201484124846614945348259148454485011495654850214956648526150181483261491824853515019048536150191485701503494836514934948579150358485801503594858315036248781151362485951503744859415037348621150400486201503994863715041648638150417486411504204843614942048644150423486451504244865615043548655150434486831505114848114951148687150515486881505164871115057348905151572487341511884853415018948747151328487461513274876515134648567150346487951513764898415237548802151383488031513844881715139848816151397488241514054901415240548881151513486851505134889115155849080152559))
 (.node 1 (.leaf 4892315218249111153182489511523424876115134248973152364491641533644899015238148991152382490081523994900715239849023152414492141534144904215243349041152432490491524404885915144049050152441488591514404906415245500000000000490831525620000000000049094152573490931525724912015319149307154192491371533374913615333649140153340489481523394915315335349336154353491571533574934015435749159153359491601533604916315336349347154364491721533724898115237249191153391490011523924919215339249001152392492051534054938815440549211153411493941544114921315341349396154413492321534324904115243249277153566492781535674928115357049462154570492851535744928415357349310154327493091543264931715433449134153334493621543794936315438049369154386493701543874938315440049200153400493951544124957815541249404154421494051544224941315443049229153429494201544374923715343749446154518494471545194949215532600000000000494991553334949815533249514155348495131553474951815535249335154352495351553694953415536849548155382493661543834955215538649370154387495831554174976315641749596155430494121544294960115543549781156435496211555134962215551449625155517498041565184963215555849631155557497101563644953015536449711156365497121563664971515636949714156368497221563764972315637749725156379497261563804973315638749554155388497351563894955515538949761156415499431574154983715718949838157190498651573374968415633849868157340498691573414987215734449691156345)
 (.leaf 4988115735350078158354498861573585008215835849927157399501231583994993615740850133158409499401574125013715841349942157414501381584144999415751900000000000500071575745000615757350039158221500401582225005415833000000000000500641583404986915734150071158347498751573475008015835650281159357500851583615028415936050099158375502981593745010515838149909157381501181583944992215739450130158406503301594065013615841250337159413501671584434997115744350246159229000000000005025615933250453160332502651593415006515834150266159342500661583425029515937150492160371503171593935011615839250327159403503261594025034115941750538160417503431594195054116042050383159459503841594605044916023450450160235504721603515067416135150509160388505081603875051916039850720161397505461604255034915942550629161212506281612115063216121550633161216506521612355045016023550658161335508631623345074816142550747161424507721614495077316145050776161453507771614545077816145550984162455507831614605078416146150830162208506251612085084416222250845162223508771623485107816334950893162364510931633645091416238550708161385509161623875071016138750941162412507361614135096116243250755161432509681624395096916244051045163225512391642255106116324100000000000510631633345106216333351066163337512591643365107416334551268164345510761633475127016434751094163365512881643655114216341350942162413511511634225095116242251153163424509531624245115816342951157163428)))
 (.node 2 (.node 1 (.leaf 5123816422451239164225512451642315105216323251257164334000000000005126016433751450165336512731643505146516535151285164362514761653625131416439151120163391513161643935112216339351321164398511271633985132916440651519165405513511644285135016442751358164435515481654345136416444151171163442513671644445155816544451370164447515611654475137416445151375164452514211652175142216521851426165222514271652235143216522851242164228514531653395164516633951480165366516721663665149216537851301164378514941653805130316438051529165415513391644165154216542851541165427515881656095158716560851603166206514101652065161116621451610166213516151662185161616621951633166236516341662375164316633700000000000516471663415183016734051674166368518581673685169916639351884167394517091664035171016640451714166408518981674085172416641851533165419517481664425193216744251758166452519431674535176316645751764166458518001672185180116721951821167239520081682405183316734351834167344518601673705204616837051867167377518661673765190516741551721166415519061674165172316641751909167419517251664195191516742551731166425519911682235180616722452016168248000000000005203516835352221169353520361683545222216935452038168356522241693565206116838552246169386520771684015226116940152085168409520841684085208616841052269169409521031684275191716742752115168439522991694395214216856451958167564521741692215217516922252180169227523681702275218416923151999168231)
 (.leaf 5218616923352000168232521971692445201216824452200169247520151682475220216924952017168249522051692525202016825252208169340000000000005224216938252420170382522471693875224616938652251169391524291703915226616940652265169405522711694115227016941052280169420520961684205228616942652102168426522981694385247617043852312169452524911704535233116959000000000000523361695955214916859652376170235521871692345238617024552198169245524051703550000000000052431170393525941713945243417039652597171397524671704290000000000052471170433000000000005251917120652518171205525281712155235717021652532171219525331712205258917138952590171390526071714075260617140652612171412526111714115266517156252822172561526721715885250817058852686172207525201712075271217223352872173234527211722425255517124252729172250525631712505273017225152564171251527431723835274217238252794172434529531734345280017244052959173440528371725945283817259552847173209526891722105287817324052719172240528931732555273417225552903173384530591743855291717339852916173397529201734015307517440152927173408530821744085293417341552933173414529371734185277717241752943173424527841724245296417344553118174444529691734505312417445052978173559000000000005298117356452982173565529931735935299417359453007174213530081742145303017423653031174237530371742435288117324353038174244528821732445306417439053227175390531041744305295017343153136174560000000000005314717458753307175586))
 (.node 1 (.leaf 5316917521353008174214531731752175317417521853179175223530171742235318217522653181175225531851752295302317422953219175382532181753815325117541453416176414532641754275342917642753269175432531061744325327517543853440176438532901755550000000000053296175561000000000005331317559253152174592533151755945331617559553322176202000000000005332317620353158175202533821763805338117637953406176404534051764035343717643553438176436534411764395361017744053445176443536131774435346817658100000000000534981772105367817821053502177214536831782155350417721653505177217535101772225351117722353523177235537031782355354017725253541177253535561773865355517738553566177396537451783955358917741953588177418536161774465379617844653668178200000000000005367717820953859179210537021782345388317923453716178248538971792485371917825153900179251537241782565372517825753744178394539281793945376117841153760178410537651784155376417841453786178436536071774375380617856453629177564538191785845399717958353825178590540041795905385717920854039180209538621792135404418021453887179238538861792375389517924654076180246539121793780000000000053925179391539261793925393217939853931179397539361794025375117840153945179411539441794105396217942854143180427539861795635398717956454007179593541891805935403718020754038180208540631802335424018123454073180243542501812445408018025054257181251541361804205413518041954140180424541411804255415218043654153180437)
 (.leaf 5415918044354340181444541791805835399617958254212181206542131812075424418123854243181237542481812425443818224254251181245542521812465425618125054446182250542821813865428118138554287181391544811823925428818139254289181393543111814155431018141454319181423543201814245433918144300000000000543451815635416818056454362181588543631815895440418220854599183209544231822275423418122854489182400542961814005449118240254297181401544961824075449518240654539182564547331835655456118259800000000000545901832005479518420054594183204548001842055460518321554811184216546231832335462418323454630183240546311832415463518324554841184246546591832690000000000054661183378000000000005466518338254664183381546691833865447518238654675183392548811843925468218339954488182399546881834055449318240454711183428547101834275472218343954723183440547411835790000000000054831184236546271832375484718425254642183252548571842625465318326354887184398546801833975491618442754915184426549211844320000000000054924184435549251844365492718443854928184439549511845865515918558654952184587551601855875495318458855161185588549711846250000000000055003185209552121862095505118525754852184257550531852595505218525855110185414551091854135511318541755114185418551171854215491018442155122185426549151844265513618544000000000000551431855665514418556755157185584553621865845515818558555363186585552061862035520718620455236186233552371862345525418625155045185251))))))
 (.node 16 (.node 8 (.node 4 (.node 2 (.node 1 (.leaf 5526918626655060185266552751862725506618527255282186279550731852795528718638255078185382553111864065531018640555399186634554001866355542518720555628188205554291872095543018721055432187212554331872135548218726255265186262554951872755549618727655539187415555381874145555518743100000000000555781875980000000000055585187605000000000005560618763955403186638556091876425561018764355645188222554421872225565218822955449187229556551882325565618823355662188239554601872405566718824455464187244556791882565547618725655689188266556901882675571318838755712188386557341884085573318840755742188416557411884155574918842355748188422557611884355595318943555764188438557651884395577418857100000000000558131891985581218919755858189243556661882435590018928500000000000559221894045572918840355939189421561291904215594118942355940189422559451894275575418842855978189638561651906385601919021756020190218560321902305603319023156070190268558831892685607119026955885189270560781902765626319127556084190282560851902835617119064456353191644561771906505598918964956186191198561851911975620119121356016190214562031912155601819021656209191221560241902225624719125956248191260562841913905609819039056289191395561031903955634919164056540192640563911922115620019121256417192237562251912375642019224056228191240564511922715625919127156461192281564621922825647719239156286191392565101924245631819142456516192430000000000005659219322656593193227)
 (.leaf 5659519322956410192230565991932335641319223356602193236564161922365661319324756428192248566501932845665119328556658193387566571933865666719339656482192396567001934295670119343056704193433567051934345673319363856732193637567361936415692719464256742193647569331946485675419420000000000000567711942175658419321856785194231565971932315679619424256608193242567981942445660919324356803194249566141932485680419425056616193250568101942565662219325656830194276566411932755684819438857038195387568701944105687119441156884194424568831944235691319458456726193585569351946505712719565056963195218567731942195696819522356969195224570021952575681119425757012195267568221942685701519527056824194270570331952885684219428857046195395568551943955704919539856858194398570551954045686419440457057195406568661944065712319564657332196647572221962825743119728257229196289572301962905723219638757231196386572521964075705819540757257196412572581964135726619642157072195421572741964295708019542957324196639000000000005735219720357351197202573541972055714519620557363197214571541962145737619722757377197228573861972375738719723857402197253571931962535741719726857208196268574241972755721519627557440197387574391973865745219739957244196399574851974325727819643357491197438000000000005754819820857356197207575501982105735919721057557198217575581982185757319823357382197233576341983905763319838957639198395574481973955764419840057453197400))
 (.node 1 (.leaf 5764519840157454197401576461984025745519740257662198418576611984175767819843457487197434577301992185755919821957731199219575601982205773819922657739199227577821992705761119827157790199278576181982785781219939757811199396578211994065782019940557824199409578251994105785319943857683198439578962002215773419922257916200241577521992405793020025557767199255579402002655793920026457951200276579502002755796520038857964200387579912004145782919941458001200424580002004235800520042858162201428580562012225789820022358073201239579142002395811820128458275202285581222013885812120138758129201395579712003945814520141157987200410581592014255831420242558200202210582012022115821320222358214202224582422022525808720125358249202259580932012595825020226058094201260582602022705826120227158272202282582732022835828920240058290202401583612032195852120422058365203223582142022245837320323158531204230583792032375822620223658397203255583962032545840520326358252202262584232032815858220428158445203405586052044055847120343158472203432585102042095867220521058519204218585202042195854820424758390203248585532042525839420325258563204262584042032625857120427058412203270585752042745841520327358587204387000000000005859520439558435203395586022044025860320440358663204643000000000005868720522558688205226587042052425854320424258705205243585432042425870720524558545204244587392052775874020527858762205400587632054015877120540958930206409)
 (.leaf 5879020542858791205429587992054375863820443858802205440588032054415883620621458676205214588412062195868120521958849206227586892052275885220623058692205230588682062465870820524658870206248587102052485889120626958892206270589042062820000000000058907206386587482053865893720641658936206415589532064325895420643358997207212588342062125900020721558999207214590132072285901420722959056207271588932062715906320727859064207279590872074035925920840359096207412592682084125915220764458984206643591922082355901920723459210208253590382072535922320826659051207266592272082705922820827159240208384000000000005924620839059419209390592482083925942220939359249208393594232093945925320839759427209398592962084405929720844159316208624594922096235932120862959498209629593272086430000000000059332208648000000000005936420923359190208233593652092345919120823459368209237591942082375937020923959196208239593932092625921920826259429209400594302094015943720940859264208408594472094185944820941959454209425596252104255946320943459291208435594822096135930720861359495209626594962096275950020963100000000000595012096430000000000059510210209000000000005952121022059697211220595482102475972421124759553210252595542102535957321027259403209272595782102775957921027859584210384000000000005964121044100000000000596442104555964321045459692211215598772122155970221122559525210224597062112295953121023059721211244599062122445977521139759960212397)))
 (.node 2 (.node 1 (.leaf 5978021140259781211403598392116155965721061559857211633000000000005987521221300000000000598922122305970721123059916212254597322112555993021226859931212269599482123855994721238459952212389601452133895996521240260159213403599882124256018221342660000212437601942134386001021245459823211454600202126080000000000060052212643600512126426005621264760055212646600882132315989321223160099213242601002132436010721325060106213249601212132646031121426360124213267603152142676013221327560133213276601472133916033821439160158213402601592134036018021342460181213425601892134336038121443460200213452600082124526026421421600000000000602812142336008921323260297214249602962142486032321427560133213276603392143926052621539260341214394603402143936036321441660172213416603672144206017621342060372214425603732144266038421443700000000000603932144546020121345360398214459000000000006040221460700000000000604172146226022821362260422214627604212146266044121464760251213647604952152606049421525960496215261606852162606051421527960705216280605762154536039221445360591215612605902156116059621561760412214617606152156366061621563760626215647606252156466065421622960840217229606752162506067421624960689216264606882162636071721639460901217393607422164196074121641860778216612607772166116078321661760966217617607892166236079021662460804216638606172156386085321724261029218243608682172576104421825860869217258610442182586087421726360687216262)
 (.leaf 6088221727160696216271608912172800000000000060903217395609022173946091121740360912217404609242174166092321741560935217427611102184286096021761160776216610609722176236097321762460980217631609792176306098721763860805216639610162182306119721923061033218247610322182466104321825761224219257610462182606087021725961055218269608802172696105621827060881217270610612182756088721727661067218385000000000006106821838661248219385610842184026108521840361090218408610892184076110621842461287219424611162184506111521844961126218603611252186026114021861761139218616611542186316097921763061166218643609912176426117421865161358219651612012192346102021823461206219239612072192406121421924761213219246612662194036108521840361302219456613032194576131921961261318219611613472196406116321864061363219656000000000006138722023961388220240614032202556159422125661432220389614312203886143422039161622221390614432204006144422040161455220412616432214116147022042761291219428614732204480000000000061477220452612972194516148922059600000000000615212206286152022062761525220632615242206316153522064261349219642615632212256137322022561575221237615762212386158522124761395220247615902212526159122125361592221254615932212556162722139561439220396616312213996163222140061668221452618632224516170322161561702221614617072216196151222061961710221622615152206226171522162761520220627617232216356191622263661735221647617342216466177222223761773222238))
 (.node 1 (.leaf 6179222225761791222256617992222646160122126361803222268616052212676180422226961606221268618132222780000000000061827222400618282224016184522241862040223419618492224226185022242361868222456000000000006189722261700000000000619052226256171322162561958223228619592232296196722323761968223238619832232536198422325461987223257619862232566199522326561994223264620102233896220222438862023223402620242234036202922340861835222408620372234166203822341762043223422622372244236205122343000000000000620772236026188222260262087223612620862236116210522363062106223631621452242216214422422062155224231623482252316216722424362168224244621752242516198122325162204224390623942253896220522439162395225390622142244006221522440162230224416622312244176223922442562430225425622772246060000000000062306224635623072246366231622464562315224644623212246506250922564962356225239625472262406235722524062358225241623812252646238022526362387225270621952242716240222539762590226397624202254156242122541662424225419622342244206245922559962269224598624852256256248422562462500225640626872266406251322565362324224653625422262356272822723662545226238627312272396255222624562737227245625682262616256722626062602226409624142254096262822645062806227449626322264546263322645562660226613626592266126267922663262859227633627112272190000000000062719227227000000000006273422724262735227243627482272566274722725562750227258625642262576276322739062582226389)
 (.leaf 6276722739462945228395627772274046277822740562790227417626102264176279622742362797227424628132275876299022858762817227591629942285916282122759562641226594628292276036265122660462835227609628362276106284622762062845227619628602276346303722863462861227635630392286366288122765562882227656628832276576270422665762900228229629012282306290522823463086229235629172282466291622824562923228252629222282516294422839463123229395629472283976312622939863004228601630052286026303322863063212229631630522286496305122864863095229244632752302456311422926362935228264631172293890000000000063129229401633072304016314222941462964228414631572294290000000000063193229612630152286126320222962163023228620632072296266320822962763209229628633832306286321322963263388230633632142296336338923063463223229642633972306426326623023663267230237632952303890000000000063308230402634812314026331323040763312230406633242304186314622941863329230423633302304246333423044800000000000633352304490000000000063338230452000000000006335123059663350230595633712306166337023061563379230624633802306256341523066063241229660634202306650000000000063422231218000000000006344123123763609232238634682313890000000000063483231404636492324046348723140863486231407635012314226350223142363512231590635112315896358523166363418230663635892322180000000000063599232228634322312286360623223563770233236636292322586362823225763635232390000000000006367323258800000000000))))
 (.node 4 (.node 2 (.node 1 (.leaf 6368123259663517231595636942326096369523261063733232648638952336486373723265263899233652637402326556390323365663765233231639282342316378023324663779233245637962332620000000000063812233405638112334046382423341763823233416638532336066369123260663864233617640262346176387423362764037234628638772336306404023463163960234390000000000006396423439464128235394639802344106414323540963987234417639862344166399323442363994234424640112346026417523560364021234612641842356126402423461564187235615640312346226419423562264049234640640482346396407123466263908233661640752346660000000000064080235219639162342196408723522664249236226640902352296409123523064095235234642572362346411823525763953234256641332353996429423639964168235596643282365956419623562464357236624641992356276436023662764203235631643652366326421723564564216235644642222356506438323665064247236224642482362256430723641264146235412643162364216447623742164319236424643202364256433323660064334236601643432366106434423661164354236621645122376216436423663164365236632643872366546454523765464401237217000000000006441923723564578238235644202372366457923823664421237237645802382376442723724364585238242644302372466458923824664441237257645992382566446523741064620238409644812375906448023758964484237593644832375926449023759900000000000644982376076449923760864506237615646602386146453123764064685238639645432376526469823865264544237653646992386536455223766164551237660)
 (.leaf 6458123823864736239238646212384106462023840964625238414647782394146464723860164648238602646792386336468023863464705238659647042386586471923922164869240221647212392236487124022364724239226000000000006474823925064747239249647512392536490224025464758239394000000000006479223959564940240594648622396656486323966664920240406647702394066493024041664929240415649742406286512324162864980240634651302416356500524065965004240658650132412160000000000065036241239651852422396505224125565202242256650722414096492324040965093241598650922415976509924160465100241605651352416406513424163965179242233650302412336518724224165334243241652072423976535124339665211242401650632414006523224259165231242590652332425926537724359265247242606652482426076525324261265397243612652552426146525624261565258242617654022436176526224262165406243621652702426296541424362965273242632652742426336528024263965134241639652952426546514824165365298242657651512416566530924321600000000000653142432216516724222165318243225000000000006531924322600000000000653212432286517424222865326243233653272432346535324339865352243397653742434190000000000065389243604000000000006541024362565543244625654342436496556724464965469244233656022452346548624425065617245249655112444156564424541665525244600655262446016557524465765574244656655802446626570324566265584245216000000000006559024522265591245223656392454116576224641265713246223657142462246572324623365724246234))
 (.node 1 (.leaf 6573624624665735246245657422462526574324625365753246403658662474036575724640765758246408657592464096576024641065768246593658812475936578324660800000000000657912466350000000000065804246648658032466476581224665665811246655658222472176582124721665838247233657242462346586524740265866247403658882476000000000000065898247630000000000006590824764066006248639659112476436601024864365931248216000000000006594024822565941248226659452482306594624823165972248400659732484016601824865165918247650660302492150000000000066037249222660382492236604624923166047249232660532492386605424923966062249247000000000006610824966100000000000661292502326613025023366163250646660922496456616825065166167250650661752506586610424965766184251216661122502156620025123266201251233662282516476616425064766245252214000000000006626225223166263252232662742522436627525224466281252639000000000006629525265366294252652663132532206637425422066324253231663252532326633025323766269252238663382532456627725224666344253643662852526436635125365066292252650663992542456646025524566419254656664782556566643025521566368254214664352552206649825622066464255642665232566416651025623200000000000665412567126654025671166546257213000000000006657525724200000000000665962582130000000000066634259213000000000006665325923266654259233666702602136666926021266675260218667112612186668226022566647259226667182612250000000000066751262221000000000006676826265300000000000)
 (.leaf 6678326321400000000000667982632290000000000066833264230000000000006685926522066895266221668692652300000000000066888266214000000000006689826622466899266225669272672156692626721467008269701670092697026701327021300000000000670202702206704927122067060271698670872726996707127221667072272217671382752136713727521267159276214671582762136716327621867183277218671682762230000000000067207278221672082782226722627921867227279219672452802156724628021667279282219672802822206729228321400000000000672962832186729728321967369287224000000000002821008518628211085187307880914793040509047930789091480304060904805257617137400000000000000520132930005301329400139014289001400142900018501520100184015200001910152070008201420700218015234000000000000034201621500343016216004130162870041401628800418016292002730152920042401629800000000000004910171920049001719100505017206005040172050051301721400514017215005460172470054501724600582017283004090162830058501728600412016286006220173230044901632300697018207006960182060077201828200581017282007920183020060201730300797018307007980183080092601921500927019216009300192190000000000000937019229000000000000094201923400943019235009450192370094401923600948019240007300182400102301931501024019316011050201700000000000001134020199011330201980115502023101154020230011620202380094601923801165020241009490192410116802024400952019244011700202460095401924601173020249009570192490117402025000958019250)))
 (.node 2 (.node 1 (.leaf 117702025300961019253011780202540096201925401179020255009630192550118002025600964019256011810202570096501925701182020258009660192580118302025900967019259012130202890099801929001322021177013210211760139702126001184020260013980212610118502026101399021262011860202620145402131701455021318015390221730000000000001569022203000000000000162502226301400021263016270222650140202126501628022266014030212660165502229301431021294018450232670162902226701846023268016300222680184802327001632022270018660232880165102228901880023302016640223020190902339100000000000019910242020199202420302016024234020150242330205302427101849023271020670242850186302328502252025285020660242840226302529602078024296022650252980208002429802266025299020810242990226702530002082024300022700253030208502430302276025309022770253100228602531900000000000024420262720223902527202443026273022400252730244402627402241025274024550262850225102528402512026562000000000000266002726902439026269026760272850245402628402688027297024670262970269902730802700027309027560275690275502756802827028175000000000000285802824603090029246028600282480309202924802862028250030930292490287202826002871028259028870282750266602727502888028276026670272760289702828502675027284029720285620297102856102993028583029940285840309502925103327030250030960292520332803025103097029253033290302520309802925403330030253030990292550333103025403100029256033320302550312102927702889028277)
 (.leaf 312202927802890028278031230292790289102827903124029280028920282800312502928102893028281031260292820289302828103128029284028960282840312902928502896028284031340292900290202829003137029293029050282930313902929502907028295032020295510320302955203222029571032230295720322502957403458030573033370302600333603025903344030267033430302660342503054003424030539034340305490343503055003444030559032110295600347603064000000000000035550312710355403127003592031308038100323080359903131500000000000036260315350362503153403657031566034500305650366803157703669031578036910321200350203112003756032254037550322530377003226803769032267038550325430385403254203859032547038580325460387603256403877032565039240331140392303311304018033267040170332660405003329903801032299041250335550412403355404194034111000000000000427103419800000000000043060342720459203527104381034528046720355270441103455804412034559044360345830415403358404446034593044450345920446103460804460034607044860351130448503511204500035127045010351280450903513600000000000045400351810453903518004614035293049240362940463003530900000000000046740355290467503553004678035533046770355320469503555004403034550047440355990445203459904773035647047740356480479003611100000000000048540361910485303619004888036258052130372570491703628704918036288049650365040000000000005010036550050090365490501603655605015036555050330365730503403657405060036600050610366010506803660805067036607))
 (.node 1 (.leaf 509703664805098036649051400371350513903713405179037192051780371910519003720305189037202052300372740559303827305298037504000000000000536103756705360037566053720375780503903657905376037582053770375830538703759305386037592054300376390508803663905447037656054480376570550403814305148037143055440381970554503819805562038215000000000000558103826105580038260055840382640599503926305596038276060070392750559703827706008039276055980382780600903927705599038279060100392780560003828006011039279056180382980561903829905665038495056640384940568203851305307037513056860385170531003751605700038531053250375310578103861205782038613058580390400546603803905863039045054720380450586803905005478038051058860390680000000000005906039136000000000000593603917405937039175059500391930595103919405962039205059610392040596503920805964039207059920392600599103925906002039270064480402690600503927306451040272060060392740645204027306013039281064590402800601503928306462040283060810394970608003949606089039505000000000000610103951806102039519061350395520613403955106143039560061440395610615103956805737038568061540395710573903857006157039574061560395730620603962306207039624062180396350621903963606227039644058130386440623003964706231039648062680400350626704003406271040038062700400370629104005805876039058063440401270634304012606360040143063610401440637004015300000000000065080404060605703940606513040411065140404120659304054706594040548)
 (.leaf 663404058806170039587066400405940664104059506649040603066500406040665804061206657040611066680406220666904062306696040650066970406510670104065506700040654067890410630629504006206806041080000000000000681804109606819041097068520411320000000000006860041140068610411410686704114700000000000068910411720000000000006919041211069180412100696304128007489042280069700412870697104128807001041396000000000000709904154007098041539071200415610712104156207127041568071260415670713604157706624040578071530415940715404159507200041641077490426420722104166207222041663072320416730672004067407237041678067250406790725304169407252041693072580417010000000000007269041712072680417110729504204307296042044073400420880000000000007423042174074220421730744004219600000000000074700422610746904226007508042299080560432990754404241407545042415075500424200755104242107561042431070360414310758204247300000000000075910424820704404148107598042489070520414890761004250207609042501076210425140000000000007628042521076270425200764904254207648042541076610425540766204255507672042565076730425660771004260307711042604077190426120771804261107728042621077290426220774004263307739042632077690426620722204166307795042688083510436870781804271107817042710079060431000790704310107921043115073670421150795204315200000000000079730431810797204318007983043193079840431940802904327208028043271080770434000807804340108083043406086490444070809804342107552042422)))))
 (.node 8 (.node 4 (.node 2 (.node 1 (.leaf 818304351908182043518081900435260763404252708204043540082030435390822604356208798044563082400435760824104357708266043602082670436030827604361208846044611083020436380887404463908316043652083150436510832404366008325043661083660437020780804270108374043710083730437090838604400208387044003083910440070000000000008392044008000000000000840904404508408044044084310440670900204506608436044072084350440710843804407409010045074084710441070791304310708475044111084740441100847804411408477044113084890441250849004412608500044136000000000000852304415900000000000085410441770797004317808569044216085680442150860004426708599044266086240442910919904529108638044396092130453970864304440109218045402086470444050922104540508679044437086800444380871604447908143043479087730445380877204453708809044574088100445750882104458608822044587088470446120884604461108943044708089420447070895404471900000000000089920450560956904605608993045057095690460560900004506409001045065090770451410907804514209091045155085190441550910004516409101045165091460452210971804622109174045266091730452650918904528109764046281092250454090922604541009229045413092300454140924004542400000000000092520454360925304543709270045461098490464620928304547409282045473092970454880929604548709305045496098840464970932004551309321045514093500455430992804654209359045552093580455510938204557509383045576093980455910939904559209419045612094180456110943604562909437045630)
 (.leaf 945004564309451045644094670456600946804566109480045673094790456720950404569709503045696095600460470955904604609566046053095670460540957004605709569046056095880460750958704607409596046083095970460840963304612009632046119096520461390965304614009663046150090870451510968704617409109045173097030461900000000000009746046263097450462620974704626409171045263097480462650917204526409767046284103520472840978804639709789046398097950464041039804740509814046423098150464240982304643210426047433098540464670985304646609892046506000000000000990004651409901046515099790465930998004659409995046609099940466081000504661909427045620100110466251001004662410022046636100210466351004104665510042046656100650466791006404667810079046693100780466921009504670910094046708100970467111070404771110105046719000000000001014104704010140047039102060471051020504710410211047110102120471111022504712410224047123102410471401024204714110286047185102870471861032904726109744046261103680473240000000000010370047326000000000001037904738600000000000103900473971039104739810414047421110240484221052004752710521047528105430475501114404855110551047558105520475591055404756109947046561105610475680995404656810579047586105800475871060404761110603047610106150476221061604762310692047699112920486991077504806610168047067107800480711077904807010792048083107930480841080104809210800048091108050480961019604709510875048166108740481651088804817910889048180))
 (.node 1 (.leaf 1094604827310947048274109500482771154304927710998048396115830493971103104842900000000000110390484461043904744611046048453110450484521105404846111637049461110650484721106604847311071048478104720474791109104849811090048497110960485031049604750311108048515111090485161113304854011132048539111390485461172304954711142048549111430485501114904855611150048557111640485711174804957211172048579111730485801119604860311780049604112020486091178404960811207048614117890496131121604862310616047623112210486281062204762911224048631112250486321122704863410627047634112370486441123804864511244048651112430486501125204865911253048660112800486871127904868611308048715113070487141133004902811329049027113520490501192605004911393049091113920490901140404910210810048101114410491391144204914011473049171114720491701157904939311580049394115810493951158204939611587049401115880494021159504941411594049413116490494731165004947411669049493116680494921168004950411681049505116910495151169204951611702049526111180485251171204953611711049535117700495941176904959311835049659118360496601184804967211847049671118710496951187204969611914050037000000000001194405006711943050066119620500851138704908512004050127120030501261201205013511437049135120260501491202705015012049050172126190511721208705021812086050217120920502231151204922212120050276126890512761214605038312145050382121550503921215605039312181050423121820504241224405048812245050489)
 (.leaf 1226105050511682049506122640505081168304950712269050513122700505141227705052112278050522123240505681232305056712331050575123320505761235405059812924051598123680506121236705061112388050632123870506311239605064012397050641124190506631183904966312430050674124290506731250505105812506051059125230510761252405107712528051081125270510801256305111611993050116125780511311257705113012586051139125870511401262605117913189052180126800512671267905126612694051315000000000001274305141612742051415128020514761280105147512832051506122630505071283705151112838051512128470515211284805152212853051527134100525261293505160912936051610129600516341295905163312976051650129750516491298505165912415050659130150516891301605169013028051702124580507021304205171600000000000130540520451305305204413102052093131010520921311305210412550051103131180521091255705111013121052112131200521111313605212713704053126131570521481315805214913172052163131730521641319905219300000000000132530523180000000000013254052319000000000001327805239213824053393133130524291331205242813338052454127790514531334205245813887053458133510524671279305146713366052482133670524831338205249813381052497134000525161284205151613413052529134120525281342705254313426052542134460525621344505256113455052571134540525701347405259014020053591135040526201404805361913506052622135050526211351805263413517052633135550526711299605167013563052679135640526801363005305213629053051)))
 (.node 2 (.node 1 (.leaf 1365305307513652053074136730530951367205309413701053123137020531241370905313114249054131137850532621432105426113819053388138200533891382905339800000000000138490534201384805341913872053443133270524431388105345213335052451139800535511398105355214040053611134960526121407205364313528052644140750536461407405364514097053668135520526681413305370414134053705141810540631418005406214210054092142090540911422905411114230054112142360541181423505411714274054156137340531561433305427314334054274143540543891435505439014376054415149190554151438705442614931055427144220544611496505546114435054474144340544731444905448813917053488144930545321449405453314548054587140160535871457905461814046053617145880546271405605362714594054633145930546321461405465314615054654146170546561461605465514645054684151890556851465305469214654054693146560546951519705569414721055068147220550691473505508214734055081147490550961474805509514757055104147580551051476505511214766055113147770551241531705612414786055133153260561331479405514114793055140148010551481480205514914823055170148240551711485905526100000000000148970553881489805538914916055412149150554111498605548214987055483150170555131554305651215067055563145230545621507405557015075055571151120556081564005660915140055636151390556351517005566614627054666152130557100000000000015251056058152520560591527405608115273056080152890560961528805609515338056145153370561441536105616815362056169)
 (.leaf 1539005626200000000000153950562671591105726715408056370000000000001541705637915932057380154580564271545905642815465056434154640564331546905643814942055438155010564701550005646915505056474155040564731552505649414997055493155280564971604105749715533056502160470575031553905650816052057508155480565171606005751615553056522155520565211559505656415594056563156160565851508905558515711056680000000000001572405669315723056692157440570290000000000015763057048152400560471577505706000000000000157890570741578805707315864057149158650571501587805716315879057164158800571651588105716615894057210158930572091591305726900000000000159240573721592305737115934057382164410583831594005738816447058389159510574061595005740515988057444159890574451599005744615989057445160700575261606905752516117057573161180575741612105757716122057578161450576011665105860216177057633156630566321619705765315685056654162460580311624505803016271058056000000000001630505809016304058089163160581011682105910116334058119158350571201634505813015845057130163560581411635505814016370058155163710581561637505816016376058161163890582040000000000016443058385169370593861647405842516972059425165060584571700305945616509058460160040574601652405847517021059474165380584891703605948916551058502160460575021655705850816556058507165830585341658405853516587058538165880585391659505854616090057546166620586131666305861416678058629166790586301668405863517182059635))
 (.node 1 (.leaf 1669005864117188059641167320586921673105869116738058698000000000001673905869917232059699167680590481676705904716804059084172800600841681405909416813059093168200591001682105910116823059103172990601031684405912416339058124168530591331634705813216894059207168930592061690105921417378060215170000594531650105845217029059482174990604831703205948517502060486170350594881703605948917075059528170740595271710105955416603058554171140595671711305956617120059573171210595741713105958417132059585171540596071715505960817191059644176610606451720205965517672060656172580600501725706004917298060102172990601031731606012017315060119173370601411733606014017354060158173550601591740406037917845061379174050603800000000000017452060436178970614361745506043917901061440174810604651748206046617556060540175570605411759906058317600060584176040605881760506058917662060646181070616461766406064818109061648176650606491811006164917670060654176710606551768206066617683060667177420611041730106010517787061149177860611481780706116917808061170178140612081781306120717820061214173770602141784406137818294062379178590613931786006139417879061418178780614171789406143317895061434179220614611836706246017943061482179440614831796806150717967061506179850615241843006252318021061560180200615591802806156717582060566180600615991806106160018069061608180700616091808106162018528062621180980616371854306263618103061642185500626431815006204618149062045)
 (.leaf 1816806209318167062092181870621121818806211318195062120181960621211823606216118237062162182550622081825406220718273062228000000000001830506239118728063392183380624311833906243218355062448183560624491835806245118778063450183630624561878506345718378062471183790624721838006247318379062472183890624821839006248318403062496184040624971840506249817958061497184120625051841106250418453062546184520625451848006257318034061573184830625761803706157618500062593185010625941855506267800000000000186270631321862806313318643063148182230621481866306316818664063169187550634271833306242618792063464187910634631881106348318812063484188400635121842006251318868063540188670635391888906356118888063560189350636071893606360818954063626185330626261897106367600000000000190050641011900406410019020064116186110631161902706412318618063123190560641521864806315319066064162186580631631907806417400000000000190870642131908806421419158064423187510634231920806447318801063473192120644771880506347719219064484192200644851925606452118849063521192600645251885306352519268064533192670645321931906458418912063584193550646201935606462119368064633193670646321942406510919839066110194680651531946906515419484065169190730641691950706521819093064219195250652360000000000019566065410195650654091957206541619151064416197400655841932006458519754065598193320645971976806561219348064613197820656261978106562519785065629197860656301984506611620261067117))))
 (.node 4 (.node 2 (.node 1 (.leaf 1986906614019868066139199180662091991706620819931066222199300662211993506622619514065225199450662360000000000020061066487200620664882008106650719663065507200880665142008706651320109066535201080665342014406657020145066571201960666221977806562220213066673197960656732024506710120660068102202480671042066206810420275067131202760671322033306720720332067206203620672360000000000020415067427204160674282042806744020429067441204650674772005006647620473067485204740674862048406749620485067497204950675072008206650820503067515205020675142052306753520108066534205390675512053806755020542067554201290665552054406755620130066556205550675672014106656720570067582209860685812057706758920578067590206030676152019006661620604067616206050676172067006811220255067111206830681252068206812420720068162207210681632072906817120730068172207340681762073306817520756068212207550682112077406823020356067230207820682380000000000020827068422212530694212084006843521268069436208800684752087906847420881068476204630674752091106850600000000000209240685192092306851821000068595209990685942107306910521072069104210740691062066306810521091069123206820681242109706912921098069130211170691492111806915021176069215211750692142119806923721199069238212890694572086206845721316069484213170694852135106951921791070518213620695302136106952921372069540213730695412137906954721378069546214070695752098006857521419069587209930685882143806960621010068605)
 (.leaf 2146706967100000000000214740696782104806867921505070110219480711112153807014321539070144215490701542155007015521556070161215570701622156307016821564070169216040702132117306921221627070236216280702372167407040121673070400216840704112168307041021697070424216960704232170407043122154071432217200704472171907044621725070452217260704532179207051921791070518218720705992143106959921875070602214330696012188307061021884070611218920706192189107061821900070627219010706282196307112621964071127219740711372197507113822007071170215660701712201407117721572070177220190711822157807018322033071201000000000002204007120822039071207220450712132249307221322059071227220600712282206207123022510072230221650714432171607044322180071458226290724572219207147021744070471222040714822220507148322232071510000000000002226807154622718072546222790715572183107055822283071561218340705612230207158022751072579223110715892186307059022348071626223490716272240207211721953071116224690721842202207118522475072190224760721912249607221622495072215225020722222205307122122518072238225190722392254307235800000000000225830724112258207241022589072417230490734182262207245022623072451226330724612309107346022635072463230930734622265607248422207071485226890725172268807251622707072535227060725342272107254922720072548227430725712229207157022775072603232350736042278407261222785072613228050726330000000000022842073109223950721102288507315222886073153))
 (.node 1 (.leaf 2290607317322907073174229320732010000000000022942073211229410732102296107323022511072231229740732432297507324423024073393230230733922303507340423034073403230530734222305207342123069073438235270744382310507347423562074473231150734842311607348523136073505231370735062314807351723147073516231500735192360807451923162073531227020725302321507358423216073585232220735912368007459123237073606232380736072331807412922863073130233410741522334207415323357074168233560741672337007418123371074182233930742072385307520723440074343234390743422346307437423005073374235250744362352607443723553074464235520744632357307448423574074485235780744892312107349023628074539236290745402364207455323641074552236490745602319107356023653074564236540745652366607457723665074576237140746252371307462423737074673237360746722375507510500000000000237820751322378307513323786075136233260741372379007514023329074140238210751712382007517023843075193238440751942385907521323858075212238840752382388507523923929075378239280753772393707538623936075385239470753962394607539523978075427239770754262398907543824448076438239970754462445607644624009075458244670764572402907547824028075477240560755052405707550624060075509235970745082410407555324103075552241300755792412907557824149075598236870745982415407560324612076602241590756082416007560924222076114242230761152423207612423773075123242520761442379507514524275076167242740761662428907618124290076182)
 (.leaf 2431007620324309076202243740763602437507636124414076404244130764032441707640723958075407244210764112396307541224422076412239640754132444107643124440076430244540764442490207744424483076473244820764722453307652324075075524245360765262453507652524575076565245760765662463407662425083077625246790771192512207811924716077156247170771572477307721325215078212247810772212478207722224783077223247820772222479307723325236078233247960772362523907823624802077242000000000002485207739424851077393248700774122442307641324907077449253480784492495307749524952077494249600775022495907750124969077511249700775122499307753524545076535250000775422455307654325014077556250130775552503907758125038077580250420775842504307758525050077592250490775912508807763024641076631250920776342553407863525123078120251220781192513507813225136078133251530781502515407815125165078162247220771622518007817725181078178251840781812518507818225192078189251930781902521007820725209078206252300782272567207922725233078230256750792302526707836824826077368253140784152531307841425339078440253380784392536907847025368078469253710784722537007847125387078488258220794882541307851424972077514254530785542501107755325479078580254780785792551607861725515078616255920791472559307914825621079176256200791752563507919025636079191256380791932563907919425662079217260950802172566607922126100080222256690792242610108022325671079226000000000002568007923500000000000)))
 (.node 2 (.node 1 (.leaf 2570307936925269078370257220793882528707838825735079401257360794022573907940525738079404257620794282618808042725791079457262190804582582407949026250080489258410795072584007950625865079531258660795322586807953425867079533259020795682546807856925934079600259330795992594407961026371080610259690796352596807963426013080135260140801362607308019526074080196260800802022564707920226086080208260850802072613308037226134080373261400803792613908037826190080429266260814282621808045726656081458262790805182585207951826313080552263120805512631908055826320080559263230805622589707956326370080609268070816092640008063926838081640264340811292686808212926459081154264600811552648808118326922082183265030811982650208119726520081215269540822152654808124900000000000265630813652656208136426620081422261840804232663108143326632081434266330814352706908243526646081448266450814472666308146526662081464266670814692710308246926687081489266860814882670208150426264080503267280815302629008052926786081588263490805882679808160026797081599268050816072724108260726814081616268150816172682708162926826081628268320816342683108163326876082137268770821382690308216426904082165269440822052651008120526960082221000000000002700008236626999082365270150823812701608238227027082393274570833932702908239527459083395270440824102704508241127052082418274830834192706508243127064082430270950824612752508346127114082480271150824812713808250427137082503)
 (.leaf 2717408254026738081540271820825482718108254727191082557271920825582719408256027195082561272160825822721708258327232082598272330825992724508261127244082610272600826262726108262727305083137273060831382733508316727765084167273430831752734208317427429083365269990823652746908340527468083404274770834132790808441427532083468275310834672759008352627161082527277230841252772208412427761084163281870851632780208420427801084203278100842122781108421327872084378278710843772787808438427448083384279000844062789908440527966084472279650844712798908449528408085495280610845672763208356828066084572280650845712808508459128086084592280900845962808908459528103084609281020846082811208461828531085618281260846322812508463128155085131281540851302819708517328617086173282470852232824808522428277085364282760853632828908537627870084376283390854262833808542528358085445283570854442837508546200000000000284050854922840408549128411085498284100854972843108551828846086518284320855192884608651828449085536284480855352847808556528059084565284900855772890608657828575086131281540851302858708614328588086144285960861522817608515228601086157286020861582862008617628201085177286520862082906708720828694086361282730853602870008636728699086366287030863702870208636928722086389287230863902872408639128725086392287300863972914208739728734086401287330864002877008643700000000000287760864432877508644228791086458000000000002879208645900000000000))
 (.node 1 (.leaf 2879708646928796086468288050864770000000000028811086483292150874822885008652228849086521288810865532888008655228919086591289200865922893108660328932086604289410866132894008661228954086626285390856262895908663128958086630289790871202898008712128986087127289850871262902208716329425088163290540871952905308719429116087371295180883712915908741429561088414291770874360000000000029194087453295920884542920508747229204087471292310874982923008749729234087501296310885002925108751829250087517292570875242925608752329273087540292720875392939808813628996087137293990881372899608713729402088140294030881412941908815729420088158295040883570000000000029538088391295390883922955308840629552088405295560884092955508840829584088446295850884472959008845229991089453295910884532999208945429593088455000000000002962308849200000000000296410885102964008850929645088514292470875142966708853629666088535296740885430000000000029690088559296890885582969808856730097089567297270885960000000000029735088604301350896052975908862829758088627297780891192938008811829790089131297890891302981508915629816089157298330891743023309017429843089184298440891852987208921329475088213299200893772992108937829926089383299270893843000108947130000089470300130894833001208948230063089533300620895323011008958000000000000301230895930000000000030142089612301410896113015208962230153089623301550896253015608962630172090113297730891143017609011729776089117)
 (.leaf 3021109015230212090153302280901693062409117030235090176306290911753024309018429844089185302810902223067609122230302090361303010903603037409044229980089442303800904483038109044930393090467299970894673041109048530410090484304500905243045109052530453090527304520905263046209053630461090535305290906033053009060430553090627301570896273060109114730206090147306340911803102109218030659091205310470922063067209121830673091219306740912203106109222030728091398303380903983076609145230767091453307900914813040709048130791091482304070904813080009149130799091490308720915630000000000030910091601309110916023092709161830545090619309520921110000000000030968092127309670921263097709213630976092135309840921433059809114430998092157309990921583103309219230647091193310560922153143709321531085092363306950913623112009240230732091402311460924483114709244931193092502311920925013125009255931249092558312680925773126909257831374093152313750931533138809316631764094167314090931873140809318631426093204310450922043152509345431152092454315320934680000000000031558093494311840924933158709352331588093524315890935253158809352431639093575000000000003166109359731662093598316770936133167809361431687093623000000000003169709364200000000000317430941463174409414731752094155317530941563181509421800000000000319680945380000000000031974094544000000000003198609455631987094557320120945820000000000032029094599316640936003205009462032414095621)))))))
 (.node 32 (.node 16 (.node 8 (.node 4 (.node 2 (.node 1 (.leaf 3208409512531722094125320950951363244809613632130095171324840961723214009518132492096180321450951863178309418632180095343321790953423219309535632548096357322210953993256909639832233095411325830964123224309544300000000000322670954743262109647432278095485000000000003229009549731926094496323060955133230509551232322095529323230955303234009554732339095546323490955563235009555732363095570000000000003238609559332740096593324270961153242609611432472096160328210971613247709616532478096166324870961753248809617632519096207328680972083252409621232872097212325420963513254109635032560096384000000000003260109644732602096448326270964803262609647932672096525330350975253267609652932677096530326850965380000000000032694096547323390955463270409655732705096558327490966023311209760232800097140331630981403281409715432815097155328360971763320009817732843097183328420971823285209719232504096192328660972063322909820632925097405332810984053296109744332597096443330080974983336809849733022097512330210975113303409752433035097525330560975460000000000033115097605334750986043312409761432761096614331380981153350009911533148098125331470981243320909818633571099186332230982003322209819933283098407000000000003330709843233308098433333660984950000000000033375098504333740985033338509851433386098515334000985293340109853033412098541337690995413343809856733439098568335350991503353609915133542099157335430991583359509921033948100209)
 (.leaf 3364809941600000000000336600994283330309842833666099434333080984333367909944733680099448337800995523377909955133821099593341711005933388310014434229101143338981001593354509916033905100166342521011663393510019634282101196339631003523396210035134007100423336540994223402210043834021100437340511004733405010047234059100481340581004803409210051434093100515341271005493377709954934135100557337860995583416510058733816099588342221011363422110113534249101163342501011643429110120534629102205343161013583431710135934360101432343591014313437110144334708102442344091014883440810148734416101495340721004943442310150234422101501344321015113443310151234438101517340961005183444010151934098100520344411015203409910052134451101530341091005313445210153134110100532344811015603448010155934488101567344891015683458310215934584102160346091021853493710318434646102351343081013503468010241434679102413346921024260000000000034747102491347461024903477210251634437101516347741025183443910151834781102525344471015263478710253134453101532348051025493480410254834847102591348481025923485410261000000000000349031031503490410315134913103160349141031613492510317234926103173349431031903461310218934975103351353061043503504510345235374104451350541034703538410447035064103480347351024793507110348735070103486350901035063508910350535106103522347791025233510910352534782102526351101035263478310252735123103539351241035403513110354700000000000))
 (.node 1 (.leaf 3517010358635171103587352551041693558510516935284104198349501031973528910420335290104204353391044163533810441535365104442353661044433538710447335386104472354171045033541610450235448104534354471045333545210453800000000000354761045623580910556335494104580358261055803550510459135176103592355091045953518010359635519104613000000000003553410511835203104117355721051563557310515735602105186356011051853568210543036031106430356841054323568310543135703105451357021054503573610549035404104490357461055003609910649935769105523354371045233579210554635793105547357991055530000000000035804105558358051055593583010558435829105583358971061423555710514135903106148362541071483591310615835914106159359201061653592110616635944106189362941071883595810620336310107204359961063783599710637936049106448363721074473607210647236398107473361031065033574810550236119106519357661055203612810652835773105527362811071753660410817636283107177366051081773632310736536322107364363661074413668410844136380107455360561064553640010747536399107474364061074813640710748236418107493360931064933642210749736097106497364381075133611210651236441107516361161065163647410754936150106550364801075553647910755436512107587365131075883654810812036226107120365541081263623210712636620108192366191081913666310838100000000000366751084323635710743236691108448366901084473670310846036704108461367461085033708110950236751108508367521085093682110857837158109579)
 (.leaf 3683210858936515107590368671086410000000000036902109151369031091523691410916337249110164369561092053729111020637066109487370651094863712510954637126109547371541095753748211057637172109593374991105933718410961700000000000372241101393688910913837235110150372361101513724211015737243110158372461101613757211116137285110200376111112003728711020237614111203372941103483762011134737357110451373561104503736611046037367110461373821104763738111047537405110499374061105003747311056737146109567374781105723779611157337599111188379081121873760911119837919112198376341113610000000000037642111369373161103703764911137637648111375376631114403734711044137669111446379831124463769111146800000000000377031114803770411148137711111488377101114873773811151537421110515377681115453776911154637781111558380951125583780611158337490110584378201115973782111159837858112137378571121363793611235237626111353379581123743764711137437991112454379901124533800811247137694111471380291124923834111349238044112507383561135073805411251700000000000381061125693841911357038125112588381261125893819111315738192113158382081131743820911317538213113179385211141783828911344038290113441383601135113835911351038425113576387471145763844211359338765114594384431135943844411359538483114140381731131393850011415738816115158385271141843884111518338532114189388471151893854011419738855115197385491143443823811334338574114369385751143703858211437738272113377)))
 (.node 2 (.node 1 (.leaf 3861611444538617114446386341144633863511446438654114483389741154823865711448638656114485386721145013867311450238692114521386911145203872711455638728114557387421145713906311557138754114583390751155833876011458938761114590388151151573881611515838825115167391421161683893611544438937115445389671154753928511647538987115495393041164943903111553939030115538390441155523936311655339055115563393731165633908211559039083115591391231161490000000000039146116172394621171723916811619439169116195391711161970000000000039173116341388591153413918811635639503117355391961163643951211736439221116389392221163903924111643139572117430392531164433925411644439270116460389511154593929611648639295116485393011164913963211749039309116499389911154993931911650939318116508393211165113965211751039346116536393471165373935511654539356116546393571165473968911754739362116552396951175533942311713300000000000394341171443943511714539461117171397911181713947011718039800118180394811171913981011819039499117351398291183513950211735439832118354395101173623984011836239511117363398411183633951311736539842118364395691174270000000000039586117444392551164453958711744539256116446396001174583993511845839608117466392751164653966211752039661117519397031175614003911856239709117567400441185673971211757040047118570397451176030000000000039755118135397541181343976511814539436117146397851181653978611816639802118182401401191823983711835940175119359)
 (.leaf 3985111837339521117373398551183773952511737739858118380398571183793986411838639865118387399221184453958811744639947118470396121174704005011857340389119573400991191414043712014140143119185000000000004015511919700000000000401561193400000000000040164119348404961203484018611937039848118370401921193763985311837540196119380401951193794020711939139868118390402221194064022111940540231119415402301194144025311943739913118436402751194590000000000040295119479406251204794032411950840653120507403581195424068912054340366119550406961205504039711958140398119582404611201654078712116540483120194407981211934051512036740184119368405201203724018811937240536120388402051193894054712039940215119399406131204674092912146740628120482402981194824063712049140952121490406411204954095712149540660120514409761215144066212051640978121516406731205274067412052840716120570410321215704072912058341046121584407451205994041611960040760121138407591211374076412114240763121141408211213554113512235540837121371405191203714086012139400000000000409151214494091612145040940121478406241204784097112150940970121508409841215224129812252241101122163414161231634121212243240898121432412861225104128512250941296122520416161235214136912259341368122592414151231624141612316341435123336000000000004145312335441767124354414581233594177212435941459123360417721243594147312337441786124373415371234384121812243841541123442412231224434155612345700000000000))
 (.node 1 (.leaf 4156012346541559123464415701234754188312447641583123488415821234874159712350241596123501415981235034127912250341643123548419551245484165612356141969124562416661235714134712257141677123582416781235834169612360100000000000417191241494140212314941728124158420371251594175612434341757124344417591243464206312534641766124353417671243544179512438241796124383418181244054150312340441825124412415111234124185812444642161125447418611244494186212445041867124455418681244564187812447142180125471419261245194222812551941941124534422431255344195912455241958124551420661253494206512534842077125360420761253594209412537742093125376421161253994181312440042121125404418171244044213412541742133125416421871254784218612547742194125485421951254864222612551742227125518422331255244223412552542236125527425391265284227612556742275125566422811255724228212557342317126140000000000004232012614342319126142423461261984234512619742356126336423551263354238612636642385126365423941263744209012537342481126470000000000004250212649142795127491425521265414284512754142567126556428601275564257512656442574126563425891265784228812557942607126596429011275974267212735542966128355426881273714268712737042697127380424011263814270512738842706127389427501274364304412843642767127453424701264534277012745642473126456428211275174282212751842827127523428281275244284112753743138128538428561275524285512755142859127555431551285554288712758342594126583)
 (.leaf 4292812815942929128160429811283704268712737042998128387429991283884301112840042717127400430211284104272712741043052128444430531284454305512844742761127447430651284574277112745743068128460000000000004308512848543084128484431041285044310312850343110128510428151275114312412852443125128525431651285654286912756543171128571434641295714318912858942893127589432071291420000000000043215129150432161291514322012915543219129154432411293334294412833343255129347435441303474330012939243003128392433221294144302612841543375129482000000000004338712949443662130493433901294974366613049743406129513431131285134347112957843747130578435021301454350113014443510130153432181291534352113016400000000000435541303574326512935743556130359432661293584357813038143289129381435841303874329612938843595130398433061293984368013051143404129511436811305124340512951243685130516434091295164368913052043413129520437131305444371213054343798131163440791321634380513133043528130331438141313394409713234043826131351438251313504385113137643852131377438631313884358613038943884131409436051304084389213141744174132417439741315234397513152444018131567440191315684404413159344329132593440471315960000000000044123132366441221323654429013255444569133553442991325634458013356444308132572443091325734431813258244598133582443221325864460113358544344133150446191341504438313334400000000000443881333494467013434944392133353446741343534443213339344433133394))))
 (.node 4 (.node 2 (.node 1 (.leaf 4444013340144158132401445031334694422213246944517133501447991345004455013353444551133535445521335364483513453644563133547448461345474460413358844603133587446321341634491413516444682134361449671353604468813436744973135366447011343804498813538144716134395444351333964476813445144486133452448031345044508913550444805134506450901355054481813451944535133519448501345514513613555144862134563448631345644487413457544875134576449431353364465713433645014135407447271344064502213541545023135416450471354444504813544545115135530451141355294511913553445403136534451391355544513813555345222136331455011373314525513636445254136363452651363744554413737445294136403450111354044534213645545343136456453561364694535713647045393136524453941365254540613653700000000000454121365454568413754545437136570457091375704547213716145473137162455091373394523113634045511137341452321363414554213737245807138372455581373884582313838845584137414455851374154560113743145323136432456591375124565813751145666137519459281385194570413756545964138565457811383464578213834745791138356460441393564581113837645810138375458171383824581813838345820138385460731393854583613840146090139402458501384154558513741545861138426455961374264588713845545623137456459001384684563613746945908138476000000000004598813915745987139156460351393474603613934846058139370463121403704609913941146353140411461291394454587713844546159139475000000000004620013955446448140554)
 (.leaf 4620213955646201139555462151395694621613957046254140184000000000004627414033246516141331462991403574654114135646311140369465541413694633114038946330140388463601404184636114041946383140447461311394474638614045046135139451463921404564639314045746410140474464111404754642414051746425140518465191413344651814133346537141352465381413534654614136146796142361465661413814681714238246613141428466121414274664214146446400140464466601415114666114151246670141521466691415204671314215100000000000467361421770000000000046783142348465341413494680914237446808142373468281423934708514339346830142395470871433954683414239947090143398468531424184660414141946889142460466381414604689114246246640141462469351425524693614255346954142571000000000004697614316846730142168469791431710000000000046991143183000000000004705914336747297144367470601433680000000000047093143401000000000004709614340447095143403471521434654715314346647179143523474141445224721514360300000000000472231441614722214416047322144392475471453934736014443000000000000473761444514737714445247382144457471441434574740214451047624145511474081445164717214351647427144557476471455574743014456047650145560474811453270000000000047491145337000000000004749414534047718146341474961453424771914634247524145370475231453694752814537447303144373475351453814753614538247554145400475531453994764914555947872146559476871461744768614617347691146178474681451774772014634347719146342))
 (.node 1 (.leaf 4774114636447959147364477771464004777614639947786146409477871464104780014642347577145423478461465104806014751147953147358479541473594798414738947767146390479871473924777014639348029147434478111464344805314746400000000000480901475664809114756748102147600000000000004814414833648352149336481561483480000000000048175148367483821493664818614837848187148379482071483994820614839848214148406482151484074822014841248008147413482501484450000000000048256148451482571484524829714856248498149562483261491824812314818348346149330483451493294836514934900000000000483881493724838714937148415149399484141493984843614942048227148419484811495114848214951248502149566485031495674853415018948334149190485361501914853715019248567150346485661503454858015035948581150360485881503674858715036648594150373487911513724862015039948619150398486381504174843314941748655150434484501494344868515051348484149514486881505164868915051748746151327489351523264876115134248950152341488031513844880415138548816151397486181503974885915144000000000000489051515724909315257248984152375489831523744899115238248992152383490011523924881215139349007152398490061523974901415240549204153404490411524324885015143149080152559492711535604911115318200000000000491341533344913315333349136153336489441523354916015336049161153361492001534004919915339949214153414000000000004922915342949037152428492371534374904615243749278153567494591545674928415357349093152572)
 (.leaf 4930715419200000000000493091543260000000000049335154352493361543534934015435749523155357493701543874918715338749388154405495711554054939415441149577155411493961544130000000000049405154422494061544234941215442949228153428494471545194944815452049462154570494611545694949815533249677156331495131553474933015434749530155364495311553654955415538849371154388495781554120000000000049622155514496231555154963115555700000000000496841563384950515533949691156345495111553454972315637749544155378497261563804954615538049763156417497621564164978115643549963157435498041565184980515651949838157190500251581914987515734749874157346499091573814991015738249922157394497401563944994315741550139158415500061575735020515857350040158222000000000005006515834149869157341500661583424987115734350133158409503341594105013715841350338159414501381584145033915941550281159357502821593585028415936050481160360502981593745029715937350326159402505221604015033015940650329159405503371594135033815941450349159425503481594245038415946050385159461504501602350000000000050453160332000000000005050816038750710161387505411604205074416142150625161208000000000005063316121600000000000506741613515067516135250720161397507191613965073616141350737161414507551614325055216043150773161450509791624505077716145450983162454507841614610000000000050845162223510441632245086316233450862162333509421624135073716141450951162422507451614225095316242450747161424)))
 (.node 2 (.node 1 (.leaf 5096916244050763161440510621633330000000000051078163349512711643485109316336451287164364511201633915092116239251122163393509221623935112716339850927162398511571634285115616342751171163442513661644435125916433651449165335512681643455145916534551270164347514611653475128816436551287164364513031643805110816337951350164427511551634265137516445251566165452514101652065140916520551422165218512331642195142716522351428165224514501653360000000000051465165351516571663515147616536251669166363515191654055171016640451541165427513491644265154816543451740166434515611654475156216544851587165608000000000005161016621351416165212516161662195161716622051634166237516351662385164516633951644166338516721663665185616736651721166415515301654165172316641751531165417517251664195153316541951731166425517321664265176416645800000000000518011672195180216722051830167340520211683395183416734452027168345518581673680000000000051866167376520521683765188416739451701166395518981674085208416840851917167427519161674265193216744252119168443519431674535212916845351958167564000000000005199916823151813167231520001682325181416723252008168240520091682415201216824451826167244520151682470000000000052017168249000000000005202016825200000000000520461683700000000000052096168420519101674205210216842651916167426521491685960000000000052175169222521761692235218716923452002168234522211693530000000000052222169354000000000005222416935652406170356)
 (.leaf 5224616938652424170386522611694015226016940052265169405524431704055226916940952446170408522701694105244717040952299169439523001694405235717021652358170217523681702275254017122752420170382525821713825242917039152592171392524761704385247717043952491170453526541714545250817058800000000000525181712050000000000052520171207523491702085253317122052534171221525631712505256417125152590171390527511723915259417139452755172395526061714065260517140552611171411527701724105268917221052523171210527191722405287717323952734172255527351722565274217238252741172381527771724175277617241652784172424527831724235282217256100000000000528381725950000000000052872173234528731732355288117324352722172243528821732445272317224452933173414529321734135295017343152951173432529531734340000000000052959173440531151744415298217356552983173566529941735945299517359553008174214530091742155301717422353018174224530231742295286717322953031174237531941752385305917438553060174386530751744015323817540153082174408530811744075310617443252951173432531521745925315317459353158175202000000000005317417521853175175219532181753815321717538053307175586533061755855331617559500000000000533811763790000000000053405176403534041764025342917642753597177427534381764365343917643753440176438536091774395350517721753686178218535111772235351217722453541177253537211782535355517738553735178385535881774185358717741753610177440536111774415361317744353793178443))
 (.node 1 (.leaf 5362917756400000000000536781782105386017921153683178215538651792165370317823553885179236537251782575354617725853751178401537501784005376417841453584177414538591792105404118021153883179234540641802345388617923754067180237538971792485389617924753900179251540821802525392617939254108180392539281793945411018039453931179397539301793965398717956453988179565539971795835399617958254004179590540051795915403818020854215181209540391802095404018021054044180214540451802155407618024654252181246541351804195395317941954153180437541541804385416818056454169180565542131812075421418120854234181228542351812295425018124454441182245542571812515444718225154296181400542951813995429718140154116180400543101814145450318241454340181444000000000005436318158954555182589544381822425463218324254446182250546401832505447518238654281181385544811823925467618339354488182399542951813995449318240454299181403544951824065430118140554599183209548051842105462418323454625183235546311832415483618424154653183263544581822625466418338154470182381546801833975467918339654710183427545151824265473318356554734183566547951842000000000000054800184205550001852065485218425754647183257549101844215470418342154915184426549141844255492518443655132185436549281844395492918444055045185251548461842515505218525854853184258550601852665486218426755066185272000000000005507318527900000000000550781853825507718538155109185413549011844125511418541855323186418)
 (.leaf 5514418556755352186568551591855865536418658655160185587553651865875516118558855366186588552071862045542418720455212186209554301872105523718623455455187235552651862625526618626355310186405553091864045536218658400000000000553631865850000000000055400186635554011866365540318663855402186637554421872225522518622255449187229552331862305546018724055461187241554641872445524718624455476187256552591862565549618727655279186276555381874145531918641455610187643557991886435562818820555821189206556661882435566518824255690188267554871872675571218838655509187385557331884075573218840655741188415559321894145574818842255940189422557541884285555318742955765188439000000000005581218919700000000000558831892685588418926955885189270556931882705595318943555954189436559891896495580518864956016190214558301892155601819021655831189216560201902185583418921956024190222558371892225603319023155847189232560981903905590718938956103190395559131893955616519063856346191637561851911970000000000056200191212560141902125622819124056042190240562481912605624919126156259191271562601912725626319127556076190274562861913925628719139356318191424563171914235635319164456544192644564131922335622119123356462192282562701912825648219239656290191396565401926405673519364056593193227564081922285659719323156411192231566081932425642119224156614193248564281922485661619325056430192250566411932755664019327456651193285564651922855665719338656846194386)))))
 (.node 8 (.node 4 (.node 2 (.node 1 (.leaf 5670119343056891194431567051934345652119243556726193585000000000005673219363700000000000568111942575662219325656822194268568231942695684219428856843194289568551943955666519339456858194398566691933985686419440456863194403568661944065667719340656871194411566821934115688319442357074195423569271946425711919564256933194648571251956485696919522456970195225570381953875703719538657058195407568671944075707219542156880194420570801954295708119543057127195650000000000005714519620557144196204571541962145695919521457193196253569981952535720819626857014195269572151962755721419627457230196290000000000005723119638600000000000572441963995705019539957278196433572791964345733219664700000000000573511972020000000000057356197207571471962075737719722857168196228573821972335717319623357439197386000000000005745319740057245196400574541974015724619640157455197402572471964025748719743457280196435575581982185736719721857559198219575601982205761119827157420197271576331983895780319938857683198439000000000005773419922257562198222577391992275774019922857752199240575801982405781119939657640198396578201994055764919840557825199410576541984105782919941457657198413578982002235789920022457914200239577501992385793920026457776199264579642003875796320038657971200394579702003935798720041057826199411580002004235815720142358093201259579352002605809420126057935200260581212013870000000000058162201428583172024285821420222458215202225)
 (.leaf 5822620223658070201236582612022715826220227258273202283584262032845827520228500000000000582902024015829120240258314202425584652034255839620325458243202253584122032705841320327158435203395582832023945847220343258473203433585202042195868220522058521204220585222042215854320424258384203242585452042445838520324358582204281587432052815860320440358604204404586382044385863920443958672205210586732052115867620521458515204214586812052195868220522058689205227586902052285869220523058532204231587082052465854620424558710205248585492042485874020527858741205279587482053860000000000058763205401587642054025880320544100000000000588342062125883520621358892206270588932062715893020640958929206408589362064155909920741558954206433587952054335898420664300000000000589992072145883520621359019207234588552062335903820725358876206254590512072665888720626559064207279592372082805919120823459190208233591942082375902120723659196208239590242072395921920826259048207263592282082715922920827259259208403594332094045926420840859436209407592682084125944120941259291208435592922084365929720844100000000000593072086135913320761359419209390595902103905942220939359593210393594232093945959421039459427209398595982103985943020940159602210402594482094195944920942059492209623593152086235949620962759497209628595252102245935520922459554210253595552102545957921027859580210279596252104255980421142659657210615596582106165969721122059698211221))
 (.node 1 (.leaf 5972421124759909212247597322112555973321125659823211454596432104545987721221560071213214599062122446010121324459947212384597622113845996021239760154213398600082124525982021145160051212642000000000006008921323259893212231601002132436029121424360106213249601052132486013321327659939212277601592134036035121440460176213420599842124216018121342560182213426601942134380000000000060228213622600342126226025121364760055212646602962142486029521424760311214263604972152626031521426760316214268603382143916052521539160340214393605272153936037321442660182213426603812144346056821543460392214453602012134536041221461760223213617604212146266060521562660494215259606842162596052621539260715216392605902156116077721661160616215637606172156386062521564660624215645606742162496067321624860685216260608712172606068821626360687216262606962162716050521527060705216280000000000006074121641860552215418607902166246079121662560840217229608412172306088121727060880217269608872172766106321827760902217394609012173936092321741560922217414609662176176096521761660979217630607962166306099121764260808216642610202182346102121823561029218243612102192436103221824661031218245610852184036108621840461089218407610882184066111021842861111218429611152184496111421844861125218602000000000006116321864060988217639611972192306137822023061207219240612082192416124821938500000000000612872194246146722042461291219428612922194296129721945161296219450)
 (.leaf 6130321945700000000000613182196116131721961061358219651613592196526137322022561372220224613882202406138922024161395220247612132192466143122038861619221387614392203966125921939661444220401614452204026151222061961513220620615152206226151422062161520220627613342196276152422063100000000000615762212386157722123961591221253617882222536159322125561791222256616062212686160522126761622221390616212213896163222140061633221401617022216146150722061461713221625617122216246173422164661733221645617732222386177422223961828222401616342214026183522240861640221408618502224236185122242461863222451620562234506188222260261689221601619592232296176422222961968223238619692232396198122325161982223252619862232566198522325561994223264617982222636202422340362218224404620382234176203922341862040223419622332244196208622361161890222610621062236316210722363262144224220619502232206219522427162196224272622022243880000000000062215224401622162244026223722442362428225423622692245986226822459762307224636624972256376231522464462504225644623242246536212822365362348225231625382262316235822524162359225242623802252636218622426262395225390623942253896241422540962413225408624302254256243122542662484225624624832256236250922564962695226648625472262406254822624162564226257623742252576256722626062376225259625822263890000000000062590226397627702273976261022641762422225417626332264550000000000062641226594626402265936265122660462652226605)))
 (.node 2 (.node 1 (.leaf 6268722664062865227639627282272366290822823762735227243627362272446274722725562562226255627782274056277922740662806227449628052274486283622761062657226610628452276196302222861962859227633630362286336288222765662703226656629012282306272222723062935228264631162292656294522839562946228396629642284146296322841362990228587631672295866299422859163171229590630052286026300622860363015228612628382276126302322862063022228619630372286346303822863563039228636632172296366305122864863228229647630862292356308722923663123229395633012303956312622939863304230398631462294186296922841963208229627633832306286321222963163387230632632412296606306222865963307230401634802314016335023059563349230594633702306156319622961563380230625633812306266338823063363556231634633892306346355623163463397230642633962306416341823066363245229664634322312286325923022963481231402636462324016348623140763312230406635022314236333023042463511231589635102315886351723159563516231594636092322386377323323963628232257636272322566369123260663690232605636952326106385723361063770233236637712332376377923324563778233244638112334046397323440363895233648640572346486389923365264060234651639032336566406523465663908233661639072336606391623421963915234218639282342316392923423263953234256639522342556398623441663823233416639942344246383123342464026234617641892356176403723462864038234629640482346396421123563964091235230640922352316412823539464289236394)
 (.leaf 6414323540964303236408641752356036433623660364187235615643482366156419423562264355236622642162356446421523564364248236225644102372266424923622664250236227642572362346441823723464320236425000000000006432823659564486237595643342366016449223760164344236611645022376116435723662464515237624643602366276451823762764365236632643662366336438323665064540237649644762374216463323842264480237589000000000006448323759264638238592644992376086450023760964512237621646672386216454523765464700238654645512376606455023765964585238242647392392416459923825664754239256646202384096461923840864648238602648002396036468023863464681238635646982386526484923965264699238653648502396536470423865864703238657647472392496459123824864770239406647692394056477823941464777239413648632396660000000000064869240221648702402226487124022365021241224649022402546490324025564929240415649282404146494024059400000000000650042406586500324065765030241233650312412346506324140064915240401650922415976523724259665100241605651012416066512324162865269242628651302416356527624263565134241639649852406396514824165364999240653651512416566500224065665167242221651682422226517424222865025241228652312425900000000000065248242607652492426086525624261565257242616652742426336541824363365327243234651802422346533424324165477244241653522433976535124339665397243612655372446126540224361700000000000654062436210000000000065414243629654132436286552624460100000000000))
 (.node 1 (.leaf 6554324462500000000000655672446496556624464865574244656654402436556559124522365459244223656022452346560324523565617245249656162452486564424541600000000000657032456626570424566365714246224658302472256572424623465603245235657432462536562224525465758246408658722474096576024641065874247411657622464126576324641365803246647658022466466581124665565810246654658212472160000000000065866247403659752484036588124759365880247592659462482316594724823265973248401000000000006603824922366039249224660542492396613625023966104249657661032496566611225021500000000000661672506506616625064966201251233662022512346626325223266264252233662692522386620725123966275252244662762522456627725224600000000000662852526436622425164366292252650662912526496629425265266232251651663252532326626425223366368254214663062532136637425422066375254221664602552450000000000066478255656000000000006649825622066554257221665232566410000000000066540256711664842557106664725922600000000000666542592330000000000066669260212000000000006671126121866712261219668952662216693426722266899266225668642652256692626721466925267213670092697020000000000067049271220670502712216707227221767098273217670872726990000000000067137275212000000000006715827621367157276212671832772186718427721967208278222672092782236722727921967228279220672462802166724728021767280282220672812822216729728321967298283220159660574211647305842127785084187282110851872985708919829459088197)
 (.leaf 3040609048030010089480541411804255414218042654143180427541421804265432018142454321181425000530132940005401329500082014207000000000000014001429000141014291001840152000018301519900343016216003440162170040901628300264015283004120162860026701528600414016288004150162890044901632300000000000004900171910048901719000504017205000000000000051401721500515017216005450172460000000000000581017282004080162820060201730300603017304006960182060000000000000798018308010160193080092701921600000000000009440192360094301923500946019238007280182380095801925000957019249009610192530074301825300962019254007440182540096301925500745018255009640192560074601825600965019257007470182570096601925800748018258009670192590074901825900998019290007800182900102401931601025019317011330201980000000000001154020230000000000000118402026000968019260011850202610096901926101186020262009700192620132102117600000000000014000212630118702026301402021265011890202650140302126601190020266014550213180000000000001629022267014040212670163002226801405021268016320222700140702127001651022289014270212900166402230201665022303018490232710163302227101863023285016470222850199202420300000000000020150242330201402423202078024296018740232960208002429801876023298020810242990187702329902082024300018780233000208502430301882023304022390252720205402427202240025273020550242730224102527402056024274022770253100227802531102439026269022360252690246702629702264025297))))
 (.node 4 (.node 2 (.node 1 (.leaf 266602727502445026275026670272760244602627602700027309027010273100275502756802754027567028710282590310302925902889028277026680272770289002827802669027278028910282790267002727902892028280026710272800289302828102672027281028960282840267502728402902028290026810272900290502829302684027293029070282950268602729502971028561029700285600299402858402995028585030900292460000000000003092029248030910292470309302924903325030248032030295520320402955303223029572034580305730332703025003533031249033320302550333103025403343030266035490312650342403053903190029539034350305500343603055103502031120000000000000355403127003553031269036250315340000000000003669031578036700315790375503225303754032252037690322670376803226603801032299038020323000381003230803811032309038540325420411103354103858032546041160335460387703256503878032566039230331130392203311204017033266040160332650412403355404123033553041540335840415503358504403034550041190335490441203455904413034560044450345920444403459104452034599000000000000446003460704459034606044850351120448403511104501035128045020351290453903518000000000000045920352710490003627004672035527049870365270467503553004676035531046770355320467603553104774035648047750356490485303619000000000000049180362880491903628905009036549053420375480501503655505014036554050340365740503503657505039036579050400365800506103660105062036602050880366390000000000005139037134051380371330514803714305149037144)
 (.leaf 517803719105177037190051890372020518803720105213037257000000000000530703751300000000000053100375160000000000005325037531053260375320537703758305043036583053860375920538503759105448037657051060366570546603803900000000000054720380450547303804605478038051000000000000554503819805546038199055800382600557903825905593038273060040392720561903829906032039300056640384940000000000005782038613057830386140581303864405814038645058760390580000000000005937039175000000000000595103919400000000000059610392040000000000005964039207059630392060599103925905990039258059950392630644104026206007039275064530402740600803927606454040275060090392770645504027606010039278064560402770601103927906457040278060570394060000000000006080039496060790394950610203951906103039520061440395610614503956206156039573057410385720617003958706169039586062070396240620803962506219039636058060386370623103964805817038648062670400340000000000006270040037058540390360629504006205881039063063430401260000000000006361040144063620401450644804026906951041268064510402720695404127106452040273069550412720645904028006962041279064620402830696604128306514040412065150404130659404054806595040549066240405780662504057906641040595066420405960665004060407163041604066570406110665604061006669040623066700406240669704065106698040652067200406740672104067506725040679000000000000681904109706323040098068610411410739304214206918041210074470422090697104128806972041289))
 (.node 1 (.leaf 703604143100000000000070440414810000000000007052041489000000000000709804153907097041538071210415620660804056207154041595066420405960722204166307223041664072520416930000000000007268041711072670417100729604204407297042045073670421150683604111407422042173074210421720746904226007468042259074890422800803704328007545042415075460424160755104242107552042422076090425010760804250007627042520076260425190763404252707087041528076480425410764704254007662042555082190435550771104260407712042605077180426110771704261007729042622077300426230773904263207738042631077490426420775004264307817042710072660417090790704310107908043102079700431780797104317907972043180079710431790798404319407985043195080280432710802704327008056043299000000000000807804340108644044402081430434790000000000008182043518081810435170820304353908202043538082410435770824204357808267043603082680436040832504366108326043662083730437090781504270808387044003083880440040840804404408407044043084350440710900704507108474044110079150431090847704411307919043113084900441260849104412708519044155000000000000856804421508567044214085990442660859804426508649044407092230454070868004443808116043439087720445370877104453608810044575088110445760882204458708823044588088460446110884504461008874044639088750446400894204470709514045707090010450650900204506609078045142000000000000908704515108515044151091010451650852904416509109045173091080451720917304526509172045264)
 (.leaf 919904529109774046291092130453970921404539809218045402092190454030922604541009801046410092300454140923104541509253045437092540454380928204547309860046473092960454870929504548609321045514093220455150935804555109357045550093830455760938404557709399045592094000455930941804561109417045610094270456200942804562109437045630094380456310945104564409452045645094680456610946904566209479045672094780456710950304569609502045695095590460460955804604509569046056095680460550958704607409586046073095970460840902004508409632046119102190471180965304614009654046141097180462210971704622009745046262097440462610976404628110350047282097890463980979004639909815046424098160464250984904646209850046463098530464660985204646509928046542105340475410994704656109368045561099540465680995304656709980046594099810465950999404660809993046607100100466240943204562510021046635094410456341004204665610043046657100780466921007704669110094046708107000477071014004703900000000000101960470951019504709410205047104102040471031021204711110213047112102240471231022304712210242047141096550461421028704718610896048187103520472840000000000010391047398110010483991042604743300000000000104390474460000000000010521047528105220475291055204755911152048559105800475871058104758810603047610106020476091061604762310009046623106220476291062304763010627047634106260476331070404771111304048711107790480701017004706910793048084107940480851088904818000000000000)))
 (.node 2 (.node 1 (.leaf 1094704827410948048275110240484221102504842311045048452110440484511109004849710489047496111180485251111704852411143048550117270495511114404855111145048552111500485571173404955811173048580111740485811122504863210626047633112430486501064204764911253048660112540486611127904868611278048685112920486991129104869811307048714118900497141132904902711328049026113870490851138804908611392049090107990480901143704913511436049134114420491401201705014011472049170120470501701151204922211513049223115800493941215805039511582049396121600503971158304939711584049398115880494020000000000011594049413115930494121163704946111638049462116680494921166704949111723049547117240495481174804957211166048573117800496041178104960511789049613117880496121183604966011837049661118470496711184604967011872049696118730496971194305006611942050065119930501161199405011712003050126120020501251202705015011452049150120860502171150604921612145050382000000000001215605039312723051393121820504241218305042512245050489122460504901226305050711683049507123230505671232205056612332050576123330505771238705063112957051631123970506411239805064212415050659124160506601242905067312428050672124580507021245905070312506051059119360500591252405107712525051078125500511031255105110412577051130125760511291258705114012588051141126790512661267805126512689051276126900512771274205141512741051414127790514531277805145212793051467122220504661283805151212839051513)
 (.leaf 1284205151612272050516128480515221284905152312924051598134830525991293605161012937051611129590516331295805163212975051649129740516481299605167012995051669130160516901357505269113053052044136210530431315805214913159052150131730521641317405216513189052180000000000001331205242812755051428133350524511333405245013381052497133800524961341205252813411052527134260525421342505254113445052561134440525601345405257013453052569134960526121293905161313505052621140490536201351705263314062053633135520526681299405166813564052680135650526811362905305114168054050136520530741365105307313672053094136710530931370205312413703053125138200533891382105339013824053393138250533941384805341914381054420138870534581388605345713981053552139820535531402005359114021053592140460536171350105261714074053645135280526441413405370514135053706141800540621417905406114230054112142310541131423505411714234054116142490541311478405513114321054261143200542601433405427400000000000143550543901435605439114494054533144950545341452305456214522054561145930546321459205463114615054654151590556551461605465515159055655146270546661462605466514722055069152620560691473405508114198054080147480550951474705509414758055105152990561061479305514014792055139148020551491480305515014824055171148250551721489805538915428056390149150554111544205641114919055415149200554161493105542714932055428149420554381494305543914965055461149640554601498705548314444054483))
 (.node 1 (.leaf 1507505557114532054571150890555851454605458515139055635151380556341518905568515190055686151970556941519605569315273056080147330550801528805609514747055094153170561241583805712315337056144153360561431536205616915885057170154590564281546005642915464056433154630564321550005646915499056468155040564731497705547315543056512155420565111555205652116064057520155940565631559305656215640056609156410566101566305663215662056631156850566541515805565415723056692157220566911578805707315787057072158650571501586605715115879057164163800581651588105716615882057167158930572091589205720815911057267000000000001592305737115922057370159320573801643905838115950057405159490574041598905744515476056445160040574601600505746116069057525160680575241609005754616089057545161180575741611905757516122057578156090565781624505803016244058029163040580891580405708916339058124163400581251634705813215847057132163550581401686005914016371058156163720581571644105838316934059383164470583891644805839016584058535170830595361666305861416664058615167310586911722505969016767059047172550600471681305909316307058092168210591011682205910216937059386174110603861700305945616504058455170210594741702005947317036059489170370594901707405952717073059526171130595661711205956517121059574171220595751713205958516635058586171550596081665705860817182059635171810596341718805964117187059640172320596990000000000017257060049172560600481728006008417722061084)
 (.leaf 1731506011917314060118173360601401686005914017355060159173560601601737706021417378060215174820604661701405946717499060483175000604841758206056617581060565176000605841760106058517605060589171370595901766106064518106061645176710606551767206065617683060667176840606681781306120717369060206178450613790000000000017860061394178610613951787806141717432060416178950614341789606143517897061436178960614351790106144017902061441179440614831794506148417967061506175220605061802006155918019061558180340615731759006057418061061600176160606001807006160917626060610181070616460000000000018109061648000000000001811006164900000000000181670620921858606309118188062113181890621141819606212118197062122182230621481778606114818237062162182380621631825406220718253062206182940623790000000000018333062426183320624251833906243218340062433183560624491877706344918390062483183910624841841106250417964061503184200625131797406151318452062545180050615441850106259418502062595185330626261853406262718543062636185420626351855006264300000000000186110631161819006211518618063123181980621231862806313318629063134186480631531822906215418658063163182380621631866406316918245062170187280633921872906339318778063450187790634511879106346318790063462188050634771880406347618812063484188130634851884906352118429062522188670635391844506253818912063584184910625841893606360818515062608190040641001859506310019088064214186810632141909306421919094064220))))))
 (.node 16 (.node 8 (.node 4 (.node 2 (.node 1 (.leaf 1915106441619150064415192200644851922106448619267064532192660645311932006458518913063585193320645971933106459619348064613193490646141946906515419470065155195140652251909906422519565065409195640654081978106562520198066624197860656301936506463019796065673000000000001983906611020255067111198680661391986706613819917066208199160662072005006647620049066475200620664882006306648920082066508196630655072008706651320086066512201080665342010706653320130066556201290665552014106656719723065567201900666162019106661720276067132198610661322033206720600000000000203560672301993906623020416067428204170674292042906744120430067442204740674862047506748720485067497200710664972050206751420918068513205380675502053706754920578067590205790675912060506761720191066617206600681022106906910120663068105206620681042068206812420269067125207210681632030806716420755068211207540682102087906847420878068473209230685182092206851720980068575205630675752098606858120985068580209930685882142006958820999068594209980685932101006860520592067604210480686792063306767921098069130210990691312111806915021119069151211750692142117406921321199069238000000000002125306942121252069420212680694362126906943721317069485213180694862136106952921360069528213730695412137406954221378069546209500685452143106959921432069600215500701552199307115621557070162211310691632156407016921565070170215660701712114006917221572070177215730701782157807018321579070184)
 (.leaf 2162807023721629070238216730704000000000000021683070410216820704092169607042321695070422217190704462171807044521791070518217900705172183107055821390069558218340705612139306956121884070611218850706122189107061821890070617219010706282190207062921948071111219490711122195307111621952071115219640711272196507112821975071138219760711392203907120722486072206220530712212205207122022060071228220610712292215407143222155071433222050714832220607148422292071570218430705702234907162722350071628223950721102239607211122476072191229250731922249507221522494072214225190722390000000000022582072410230400734092262307245122173071451226880725162268707251522702072530227010725292270607253422256071534227200725482271907254722751072579227500725782278507261323244073613228630731302286407313122886073153228870731542290707317422908073175229410732102249007221022975073244225250722452300507337400000000000230230733922302207339123034073403234910744022304907341823507074418230520734212351007442123093073462230920734612311607348523575074486231210734902266107248923147073516231460735152319107356023192073561232160735852321707358623238073607232390736082332607413722871073138233290741400000000000023342074153233430741542335607416723355074166233710741822337207418323439074342234380743412352707443823526074437235520744632355107446223562074473235610744722357407448523575074486235970745080000000000023608074519000000000002362907454023171073540))
 (.node 1 (.leaf 2364107455223640074551236540745652365507456623665074576236640745752368007459123681074592236870745982368807459923713074624237120746232373607467200000000000237730751232423007612223783075133237840751342382007517023819075169238440751942338407419523858075212238570752112388507523924346076239239280753772346707437823936075385239350753842394607539523945075394239580754072395707540623963075412239640754132397707542624436076426240280754772448707647724057075506235950745062407507552423614074525241030755522364007455124129075578241280755772416007560924161075610242900761822383307518324309076202000000000002437507636100000000000244400764302443907642924456076446244550764452446707645724466076456244820764722402207547124535076525245340765242454507653524544076534245530765432455407654424576076566241180755672461207660224611076601246410766312464207663224717077157251600781572478207722225225078222248260773682482507736724851077393248500773922495907750124958077500249700775122497107751324972077514000000000002501307755525012077554250380775802503707757925043077585245950765852508307762525523078624251220781192512107811825136078133251370781342515407815125155078152251810781782473907717925185078182251860781832520907820625208078205252150782122477207721225236078233256780792332523907823625681079236252690783702527007837125287078388248450773872531307841424871077413253480784492578207944825368078469253670784682537007847124928077470)
 (.leaf 2546807856925469078570254780785792591207957825515078616255140786152559307914800000000000256200791752561907917425636079191251930781902563907919425640079195256470792022520407820125672079227000000000002567507923000000000000257360794022530207840325738079404253030784042582207948826248080487258400795062583907950525852079518254170785182586607953225867079533258970795632589807956425933079599259320795982607408019625641079196260850802072608408020626095080217265220812172610008022226527081222261340803732570807937426139080378257110793772618808042726625081427262190804582665708145926250080489262490804882629008052926289080528263120805512588407955026320080559263210805602634908058826350080589263710806102680808161026460081155268950821562650208119726075080197265100812052608208020426562081364265610813632662608142827062082428266320814342706908243526656081458266570814592666208146400000000000266860814882712208248826738081540267390815412680708160926808081610268150816172681608161826826081628272620826282683108163326830081632268380816400000000000026868082129272970831292687708213826878082139269220821832735108318326999082365269980823642701608238227017082383270450824112704608241227064082430274940834302710308246927102082468271150824812711608248227137082503271360825022718108254726744081546271920825582719308255927195082561267590815612721708258326781081583272330825992679708159927241082607276720836082724408261027673083609)))
 (.node 2 (.node 1 (.leaf 2726108262727262082628273060831382773708413927342083174269130821742744808338427449083385274590833952789008439627483083419274840834202752508346127955084461275310834672796108446727722084124277210841232776508416727764084166278010842032780008420227811084213278120842142787108437727870084376278990844052746808340427908084414283280854152796508447128384085471280590845652762908356528065084571284840855712808608459227657083593281250846312812408463028154085130277270841292817608515227751084153281870851632860808616428201085177282020851782824808522428668086224282760853632827508536228338085425287580864252835708544428356085443284040854912840308549028410085497284090854962844808553528028084534285310856182894708661928539085626285400856272858808614428168085144286170861732861608617228699086366282780853652870208636929114087369287230863902913608739128725086392291380873932877508644228355085442288460865182884508651728849086521000000000002888008655228465085552289060865782890708657928920086592285060855932893208660428933086605289400866122934508761228958086630289570866292898508712628984087125289960871372858008613629053087194290520871932906708720829470088208292040874712920308747029230087497292290874962924708751428842086514292500875172924908751629256087523000000000002927208753929271087538294030881412940408814229420088158294210881592942508816329822089163294590881972985508919629518088371295170883702953908839229934089392)
 (.leaf 2955208840529551088404295550884082995008940829561088414295620884152958508844729586088448295920884540000000000029631088500300290894992964008850929639088508296660885352966508853429689088558000000000002977308911429376088114297760891172937908811729789089130297880891292981608915729817089158298440891852984508918629921089378299220893792992708938400000000000299800894422997908944129991089453000000000002999208945400000000000300000894702999908946930097089567300980895683013508960530136089606301410896112974208861130153089623297550886243015708962730156089626302060901472980708914830212090153306080911543030109036030300090359303810904493038209045030410090484304090904833045209052630451090525304610905353046009053430530090604305310906053054509061930149089619305980911443020209014330624091170306250911713064709119330648091194306730912193106109222030676091222000000000003069509136230694091361307320914023034209040230767091453000000000003079909149030798091489309110916023091209160330976092135313570931353099909215831000092159310210921803140209318031147092449311480924503119209250131191092500312490925580000000000031269092578000000000003137509315330995092154314370932153181109421431588093524312150925243166209359831663093599316780936143130509261431722094125317210941243174409414731745094148317530941563175409415731987094557323500955573217909534200000000000323050955123194109451132323095530323240955313233909554600000000000))
 (.node 1 (.leaf 3241409562100000000000324260961143242509611332448096136324470961353247809616632827097167324840961723283309717332488096176324890961773249209618032839097179325040961923250509619332541096350328880973493254809635732549096358325690963980000000000032583096412325840964133259709644300000000000326020964483260309644932626096479326250964783267709653032678096531327050965580000000000032740096593327410965943276109661432760096613328210971613282209716232842097182328410971813286809720832867097207328720972123323509821233021097511330200975103311209760233474098603331470981243314609812333163098140331640981413322209819933221098198332810984050000000000033308098433329530974333338609851533387098516334010985303340209853133439098568000000000003347509860400000000000335000991153385410011533536099151335370991523354309915833544099159335710991863357009918533654099422336530994213368009944834033100449337790995513377809955033816099588338170995893394810020900000000000339621003513396110035034021100437343641014363405810048034057100479340721004943407110049334093100515340941005163409810052033749099521341711005933451510159434221101135342201011343422910114334228101142342501011643458910216534308101350343071013493431710135900000000000343591014313469610243034422101501347561025003443310151234434101513344391015183409710051934447101526341051005273445310153234111100533344801015593413710055934489101568000000000003458410216034585102161)
 (.leaf 3462910220500000000000346791024130000000000034708102442347071024413474610249034745102489347791025233444410152334782102526344481015273478310252734449101528348041025483480310254734848102592348491025933490410315134905103152349261031733492710317434950103197349491031963507010348634741102485350891035053508810350435124103540351251035413517110358735172103588351801035960000000000035203104117348691031163529010420435621105205353061043503530510434935338104415353371044143536610444335696105444353741044513537310445035386104472353851044713543710452335107103523354471045333544610453235557105141355561051403557310515735574105158355851051693592510617035601105185352711041853568310543136032106431357021054503537310445035748105502354161045023576610552035434104520357731055273544110452735793105547354611045473580510555936160106560358091055633581010556435826105580361801065803582910558336183106583359141061593591510616035997106379356491053803603110643000000000000360561064553570710545536093106493360921064923609710649735742105496360991064993574410549836112106512357581055123611610651636117106517362261071200000000000036232107126000000000003625410714836575108147362941071883629310718736310107204363111072053632210736436321107363363571074323635610743136372107447366891084463639910747436398107473364791075543647810755336513107588365141075893660410817636605108177366191081913661810819036684108441370191094403669010844737026109447))))
 (.node 4 (.node 2 (.node 1 (.leaf 3670410846137041109462368891091383688810913736903109152369041091533706510948636729108486370811095023740811050237126109547371271095483714610956736810108567371581095793748511057937236110151375621111513724311015837244110159372491101643725011016537291110206000000000003731611037037317110371373561104503767311145037367110461373681104623738111047500000000000374061105003772411150137421110515374201105143748211057637483110577374901105843749111058537499110593375001105943761111120037922112201376141112033761511120437620111347376191113463762611135337300110354376941114713769311147037704111481380181124813771011148737709111486377691115463777011154737796111573377971115743782111159837822111599378571121363816911313537908112187382211131873791911219838233113199379831124460000000000037990112453383031134543809511255838096112559381261125893843911359038173113139381721131383819211315838193113159382091131753851811417538238113343000000000003827211337737961112377382901134413797911244238341113492383401134913835611350738678114507383591135103835811350938419113570387411145703852111417838835115177385751143703857611437138617114446386181144473863511446438957115465386561144853865511448438691114520390111155193872811455738729114558387471145763874811457738761114590390831155913881611515839132116158388411151833915711618338847115189391631161893885511519738856115198388591153410000000000038951115459389501154583897411548239292116482)
 (.leaf 3899111549938992115500390301155383934711653739142116168394581171683916911619539170116196392221163900000000000039254116444389371154453925511644538938115446392751164653895711546539285116475396161174743929511648539626117484393041164943930311649339318116508396491175073935611654639689117547393631165533936411655439373116563397051175633943511714500000000000394361171460000000000039462117172397921181723950311735539833118355395121173643984211836439525117377392081163763957211743000000000000395881174463925611644639612117470392801164703966111751939328116518396951175533969611755439754118134397531181333979111817140129119171398001181804013811918039829118351401671193513983211835439833118355398401183624017811936239841118363401791193633984811837039518117370398531183753985211837439857118379395261173783986511838739866118388399131184363991211843539935118458399341184574003911856240378119562400441185674038311956740047118570400481185714014011918200000000000401751193594050712035940184119368398461183684018811937239850118372401951193793985611837840205119389398681183904022111940540220119404402301194144056212041440298119482399591184824038911957340388119572403981195824039911958340416119600404171196014043712014140763121141404961203484049512034740519120371401871193714062512047940624120478406531205074096912150740674120528409901215284068912054340688120542407591211374107412213640787121165411031221654079812119300000000000))
 (.node 1 (.leaf 4089812143200000000000409161214504059912045140929121467409301214684095212149040951121489409571214954127112249540970121508409691215074097612151441290122514409781215164129212251641032121570413461225704104612158441047121585411351223554145512335641218122438409041214384122312244341224122444412851225094128412250841298122522416171235224140212314941087122149414161231634141712316441511123412411921224124155912346441558123463415821234874158112348641596123501415951235004161612352141928124521416781235834136012258441757124344000000000004176712435442071125354417961243834179712438441813124400415001234014186812445641869124457418831244764188412447741955124548422571255484195812455141957124550419691245624165812356342037125159423371261604206512534842064125347420931253764209212537542133125416000000000004216112544742465126448421801254710000000000042195125486421961254874222712551842530126519422341255254223512552642243125534425451265344228212557342283125574422881255794228912558042319126142426181271424234512619742344126196423551263354235412633442385126365423841263644240112638142402126382424701264534247112645442539126528428331275294259412658342595126584426871273704239012637042727127410424301264104277112745742475126458427951274914279412749042815127511428161275124282212751842823127519428281275244282912752542855127551431511285514286012755643156128556428931275894260012658942901127597429021275984292912816042930128161)
 (.leaf 4294412833342650127333429661283554326212935442999128388427061273894300312839242709127392430261284154302712841643044128436430431284354305312844543054128446430841284844337612948343103128503433961295034312512852543419129526431381285384343212953943216129151432171291524321812915300000000000432191291540000000000043265129357429691283584326612935842969128358432891293814299212838143296129388432971293894340412951143112128512434051295124311212851243409129516434101295174341312952043121128521434641295714374113057243501130144000000000004352813033143239129331435441303474354313034643586130389432971293894360513040843316129408436621304930000000000043666130497439481314974371213054343711130542437471305784402913157843825131350441071323504385213137744134132377439751315244369413052544019131568437371305684407913216344080132164441221323654412113236444158132401441591324024417413241744456133417442221324694422113246844309132573445901335744432913259344609133593444331333944415113239444435133396441531323964448613345244487133453445351335194453413351844551133535448341345354456913355344289132553445801335644458113356544603133587448861345874461913415044899135149446571343364465813433744670134349446711343504467413435300000000000447271344064472613440544799134500000000000004483513453645121135536448461345474484713454844863134564451501355654497313536644972135365449881353814527313638245011135404447251344044502313541644737134416)))
 (.node 2 (.node 1 (.leaf 4504813544545333136446450891355040000000000045090135505000000000004511413552945398136529451361355514541813655145138135553454201365534523213634145231136340452541363634525313636245323136432450381354314534313645645060135457453941365254539513652645403136534000000000004547313716245196136162455011373314550013733045544137374458091383744558513741545307136416455961374264531713642645636137469453571364704565813751145657137510456841375454594413854545782138347457831383484580713837246060139372458101383754580913837445823138388000000000004587713844545878138446459281385194617613951945964138565462101395644598713915645986139155460361393484578313834846044139356462981403564607313938546327140385460901394024634314040146131139447458801384484620113955546449140555462161395704646514057146312140370465551413704633014038846573141388463531404114659614141146361140419463621404204639314045746142139458464111404750000000000046425140518464261405194644814055446687141554465161413314651514133046518141333467671423324653414134946292140350465541413694680414236946604141419466051414204663814146046397140461466401414624664114146346661141512466621415134666914152046920142520467301421680000000000046796142361470531433614680814237347064143372468171423824707414338246936142553471901435534708514339347323144393470871433954732514439547090143398473271443974709514340300000000000471441434574714514345847153143466468961424674717214351647171143515)
 (.leaf 4722214416046967143159472971443670000000000047303144373473021443724737714445247378144453474681451774723914417747523145369475221453684754714539347771146394475531453994755214539847577145423473531444234762414551147625145512476471455574764814555847650145560478731465604768614617347464145173477191463424771814634147767146390477681463914777614639947775146398478111464344758814543447872146559480841475604795914736448172148364480081474134779114641448060147511480611475124809114756748303148568481231481830000000000048187148379481881483804820614839847992147397482151484074821614840848227148419480141474194825714845248258148453483341491904813114819148345149329481371483294835214933648557150336483871493714859115037048414149398484131493974843314941748225148417484501494344844914943348482149512482761485134848414951448277148514484981495624870015056248503149567485041495684853715019248538150193485661503450000000000048581150360485821503614861915039848618150397486891505174888615151848791151372489801523714881215139348615150394489351523260000000000048944152335487541513354895015234148949152340489831523744898215237348992152383489931523844900615239748815151396490371524284884615142749046152437490451524364909315257249282153571491331533334913215333249161153361491621533624919915339949198153398492041534044938715440449228153428490361524274927115356000000000000493361543534952015535449371154388491891533894940615442349224153424))
 (.node 1 (.leaf 4944815452000000000000494591545674946015456849461154569494601545684950515533949322154339495111553454932915434649523155357497041563584954415537849545155379495461553804954715538149571155405495701554044957715541100000000000496231555154980115651549677156331496761563304974015639449559155393497621564164994415741649805156519000000000004986915734149688156342498711573434968915634349874157346496921563464991015738250107158383499631574354996415743650025158191500261581925020515857300000000000502971593735049416037350329159405503281594045033415941050335159411503381594145033915941550385159461503861594625048116036050683161360505221604015072316140050552160431503541594305067516135250881162352507101613875070916138650737161414509431624145076316144050561160440508621623330000000000050921162392509221623935097916245050980162451509831624545098416245551156163427511551634265123316421951234164220512711643485146216534851287164364514781653645136616444351558165444514091652055121916420551428165224514291652255144916533500000000000514591653455165116634551461165347516541663485153016541651339164416515311654175134116441851533165419513421644195156216544851754166448515661654525175916645351617166220516181662215163516623851636166239516441663385182816733851657166351516561663505166916636351853167363517011663955151016539651710166404518941674045174016643451739166433518131672315181216723051814167232516301662335182616724400000000000)
 (.leaf 5185616736600000000000519101674205172616642051916167426517321664265200216823451816167234520091682415182416724252021168339000000000005202716834552213169345520521683765223616937652084168408522681694085211916844352303169443521291684535231316945352176169223521771692245226016940052259169399523001694405230116944152349170208521611692085235817021752171169218524061703560000000000052424170386524231703855244717040952446170408524771704395247817044052523171210523511702105253417122152363170222525401712275253917122652564171251523921702515259217139252752172392527221722435255517124252723172244525571712445273517225652569171256527411723815289917338052751172391529111733925275517239552756172396527761724165277517241552867173229528661732285287317323552874173236528771732395303217423852932173413529311734125298317356600000000000529951735950000000000053009174215530101742165301817422453181175225530601743865306117438753081174407530801744065311517444153278175441531531745935315417459453175175219530141742205321717538053216175379532381754015323717540053306175585533051755845340417640253571177401534391764375360717743753512177224536931782255354617725853547177259535841774145358317741353587177417535861774165359717742753596177426536091774395379017844053611177441537921784425368617821853506177218537211782535390217925353735178385539191793855375017840053569177399538601792115404118021153865179216538661792175389617924754077180247)))))
 (.node 8 (.node 4 (.node 2 (.node 1 (.leaf 5395317941953769178419539881795655380817856653996179582539951795815400517959154187180591540401802105421718121154045180215542211812155406418023454240181234540671802375424318123754082180252542591812535410818039254289181393541101803945429018139454154180438541551804395416918056554170180566542141812085421518120954235181229540601802305425218124654442182246542811813855410018038454295181399541141803985429918140354298181402543011814055430018140454441182245544421822465444718225154641183251544701823815427718138154503182414545021824135455518258954751183589546251832355462618323654632183242546331832435464018325054845184250546471832575464818325854679183396548851843965470418342154510182421547341835665454218256754805184210548061842115483618424154837184242548531842585464818325854862184267546571832675490118441254695183412549141844255470818342555000185206552101862075507718538155076185380551321854365534218643755266186263552671862645530918640455528187404553191864145531818641355323186418555421874185535218656855353186569553641865860000000000055365186587000000000005536618658800000000000554011866365518818563655402186637551881856365542418720455627188204554301872105563418821155487187267554881872685550918738555508187384555531874290000000000055665188242554621872425569318827055490187270557991886435580018864455805188649000000000005583018921555639188216558311892165564018821755834189219556421882195583718922255838189223)
 (.leaf 5584718923255656188233558841892695569218826955913189395557211883955593218941455931189413559401894225612919042155954189436561441904365601419021255827189212562211912335603619023456249191261560631902615626019127256074190272562701912825608519028356290191396561051903975631719142356316191422563461916375634519163656408192228564091922295642119224156229191241564281922485623619124856430192250562381912505646519228556274191286565211924355652219243656544192644567391936445662219325656621193255566651933945648019239456669193398564841923985667719340656493192407566821934115668119341056735193640569241946395682319426956824194270568431942895684419429056846194386568451943855686719440756868194408568801944205669119342056959195214567691942155699819525356806194252570141952695682419427057037195386000000000005705019539956859194399570741954235707519542457081195430568901944305712519564800000000000571441962045694919520457147196207571461962065716819622857169196229572141962745701919527457245196400570511954005724619640157052195401572471964025705319540257279196434572801964355736719721857368197219574201972715742119727257560198220573701972215758019824057390197241576401983965744819739557649198405574581974055765419841057655198411576571984135746619741357740199228577411992295775019923857578198238577761992645760319826357826199411576551984115789920022457736199224579352002605777119925957963200386000000000005797020039357969200392))
 (.node 1 (.leaf 5807020123657911200236581572014235815620142258215202225580602012265828320239458128201394582912024025829220240358317202428584692034295838420324258232202242583852032435823320224358413203271582622022725842620328400000000000584652034255846420342458473203433584742034345851520421458356203214585222042215868320522158546204245583872032455854920424858390203248586042044045860520440558639204439584802034405867320521158511204210586822052205868320522158690205228585292042285874120527958742205280587642054025892320640258795205433587962054345883520621358674205212588552062335885420623258876206254587162052545888720626558886206264588932062715889420627258929206408590922074085902120723658858206236590242072395902320723859048207263588852062635909920741559270208414591332076130000000000059190208233590182072335923720828059238208281592922084365929320843759315208623593142086225935520922459181208224594332094045960521040559436209407594352094065949720962859498209629595552102545938620925559580210279597572112805959021039059768211390595932103935959421039459598210398597762113985960221040259781211403596432104540000000000059698211221598832122215973321125659557210256597622113845976121138359820211451000000000005989321223159707211230599092122476010421324759939212277599402122785998421242159799211421600342126225984621162260055212646600542126456007121321400000000000601012132446010221324560105213248602952142476018221342659990212427)
 (.leaf 6020121345360009212453602232136176002921261760291214243604792152446031621426860126213269603512144046035221440560497215262606872162626050521527060318214270605252153916071421639160527215393607152163926055221541860365214418605682154340000000000060617215638606182156396062421564560438214644606732162486067221624760684216259608702172596077721661160776216610607962166300000000000060808216642606212156426084121723060842217231608802172696069421626960901217393609002173926092221741460736216413609652176166113921861660988217639608052166396102121823560846217235610632182776106421827861086218404612682194056111121842961292219429611142184480000000000061208219241612092192426121321924661212219245612592193966126021939761296219450612952194496131721961061316219609613342196276115021862761359219652615462206536137222022400000000000613782202306156922123161389220241613902202426146722042461656221424615142206216151322062061577221239615782212406160522126761604221266616192213876161822138661621221389618162223896163322140161445220402616342214026163522140361689221601616882216006171222162461517220624617332216456153722064461764222229615682212306177422223961775222240617882222536198422325461798222263616012212636189022261061889222609619502232206194922321961969223239619702232406198222325262176224252620392234186223222441862056223450620552234496210722363262108223633621282236536193322265362186224262619922232626219622427262197224273)))
 (.node 2 (.node 1 (.leaf 6221622440262217224403622682245976226722459662359225242623602252436237622525962375225258623942253896239322538862422225417622312244176243122542662432225427624832256236248222562262504225644626902266436253822623162539226232625482262416254922624262562226255625612262546264022659362639226592626572266106247022561062695226648628732276476270322665662704226657627222272306272322723162736227244627372272456277022739762948228398627792274066278022740762805227448628042274476283822761262659226612629082282376290922823862946228396631252293976296322841362786227413629692284196297022842063006228603630072286046302222861963021228618630362286336321522963463038228635632162296356306222865962885227659630872292366326723023763116229265000000000006316722958600000000000631712295906317022958963196229615630172286146321722963663391230636632282296476340123064663245229664000000000006325923022963260230230633012303956347423139563312230406633112304056333023042463331230425633492305946334823059363381230626633822306276338723063263555231633633962306416356223164063510231588000000000006351623159463678232593635562316346371923263463627232256634592312556369023260500000000000637712332376377223323863773233239639372342406377823324463777233243638232334166382223341563831233424636702324256385723361063858233611639072336606406823465963915234218000000000006395223425563951234254639732344036397223440264038234629640392346306405723464864220235648)
 (.leaf 6406023465164223235651640652346566422823565664092235231642542362316418923561764190235618642502362270000000000064303236408644632374086433623660364337236604643482366156434923661664355236622643562366236436623663364367236634644102372266456923822664486237595644852375946449223760164493237602645002376096465523860964515237624646702386246451823762764517237626645402376496469423864864550237659645492376586459123824864590238247646192384086461823840764633238422000000000006466723862164666238620646812386356452623763564739239241647382392406477723941364927240413648002396036480123960464870240222650192412226490324025564754239256649152404016476523940164928240414650762414136498524063964837239640649992406536484923965265003240657650022406566502124122465170242224650252412286487624022865168242222653162432236518024223465031241234652372425966538024359565257242616654012436166526924262865413243628652762426356542024363565351243396000000000006541824363365419243634654402436556529624265565477244241656092452416553724461200000000000655662446486556524464765603245235656042452366561624524865615245247656222452546549024425465704245663000000000006576324641365764246414658022466466591424764665810246654658092466536583024722565831247226658722474096587324741065874247411000000000006588024759265879247591659472482326604724923265975248403000000000006603924922466121250224661032496566617325065666136250239661372502406616625064966165250648))
 (.node 1 (.leaf 6620225123466203251235662072512396620825124066224251643661602506436623225165166231251650662642522336626525223466276252245000000000006630625321300000000000663752542216637625422266484255710664252547106655425722166555257222667122612196667626021966864265225668652652266692526721300000000000669342672226693526722367050271221670512712226709827321767099273218671572762120000000000067184277219672052782196720927822367210278224672282792206722927922167247280217672482802186728128222100000000000672982832206729928322130407090481300100894803178309418631408093186543211814255414218042654515182426543221814260005401329500055013296001410142910014201429200183015199000000000000026701528600266015285003440162170034501621800408016282002630152820041501628900416016290004890171900048801718900515017216005160172170060301730400604017305007430182530055201725300744018254005530172540074501825500554017255007460182560055501725600747018257005560172570074801825800557017258007490182590055801725900780018290005890172900094301923500724018234009570192490095601924800968019260007500182600096901926100751018261009700192620075201826201016019308010170193090102501931701026019318011870202630097101926301189020265009730192650119002026600974019266014040212670119102026701405021268011920202680140702127001194020270014270212900121502029101633022271014080212710164702228501421021284016650223030166602230401876023298018770232990187802330001662022300)
 (.leaf 188202330401667022305020140242320201302423102054024272018500232720205502427301851023273020560242740185202327402236025269020510242690226402529702079024297022780253110227902531202445026275022420252750244602627602243025276026680272770244702627702669027278024480262780267002727902449026279026710272800245002628002672027281024510262810267502728402454026284026810272900246002629002684027293024630262930268602729502465026295027010273100270202731102754027567027530275660297002856003210029559029950285850000000000003091029247000000000000310302925903336030259031900295390000000000003325030248000000000000333103025403330030253034360305510343703055203458030573034570305720355303126903552031268036700315790000000000003754032252037530322510376803226603767032265038020323000380303230103811032309000000000000387803256603879032567039220331120392103311104016033265040150332640411603354604117033547041230335530412203355204155033585041560335860441303456004414034561044440345910416103359104459034606000000000000448403511104483035110045020351290421303413004676035531043840345310477503564900000000000049000362700522503726904919036289049200362900498703652704986036526050140365540534803755405035036575050360365760504003658005041036581050430365830504203658205062036602050630366030510603665705107036658051380371330513703713205149037144048220361440517703719000000000000051880372010518703720005326037532049930365330534203754805341037547))))
 (.node 4 (.node 2 (.node 1 (.leaf 538503759105050036590054730380460547403804705579038259055780382580574103857205740038571058060386370580703863805814038645058150386460581703864805818038649058540390360000000000005881039063000000000000596303920606408040205059900392580000000000006004039272064500402710603203930006033039301060790394950607803949406103039520061040395210616903958605755038586063230400980000000000006362040145068660411460644104026206944041261064530402740695604127306454040275069570412740645504027606958041275064560402770695904127606457040278069600412770651504041306516040414065950405490659604055006608040562061450395620662504057906626040580066980406520669904065306721040675067220406760683604111406835041113069540412710747904227006955041272074800422710696204127907487042278069660412830749204228306972041289069730412900708704152806574040528070970415380709604153707163041604071640416050722304166407224041665072670417100726604170907297042045072980420460739304214200000000000074210421720000000000007447042209000000000000746804225907467042258075460424160702204141707552042422075530424230760804250007607042499076260425190762504251807647042540076460425390771204260507164041605077170426100771604260907730042623071830416240773804263108295043631077500426430775104264407815042708078140427070791504310907914043108079190431130791804311207971043179000000000000798504319500000000000080270432700802604326908037043280086130442800811604343900000000000)
 (.leaf 820204353808201043537082190435550822004355608242043578082430435790826804360408269043605083260436620832704366308388044004078310430040840704404307848043042084910441270849204412808515044151079510431510852904416508528044164085670442140000000000008598044265085970442640864404440208645044403087710445360877004453508811044576088120445770882304458808253043589088450446100884404460908875044640088760446410900204506609579046066090070450710958404607109020045084084470440830910804517209107045171091720452640917104526309214045398092150453990921904540309220045404092310454150980504641409254045438092550454390929504548609872046485093570455500878404454909384045577093850455780940004559309401045594094170456100941604560909428045621088560446210943204562509433045626094410456340886904463409469045662094700456630947804567109477045670095020456950893004469509514045707100930467070955804604508980045044095680460550956704605409586046073095850460720965404614109655046142097170462200971604621909774046291000000000000979004639909791046400098010464100980204641109816046425000000000000985004646309851046464098520464650985104646409860046473104670474740995304656709374045567099810465951058904759610009046623094310456241004304665710044046658100770466911007604669010170047069101690470681019504709409606046093102040471031020304710210213047112102140471131022304712210222047121103500472820000000000010489047496104880474951052204752910523047530))
 (.node 1 (.leaf 1053404754110533047540105810475881058204758910602047609106010476081062304763010624047631106260476331001904663310642047649106410476481079404808510795048086108960481870000000000010948048275115420492761100104839911002048400110250484231102604842411044048451110430484501114504855211146048553111520485591115304856011166048573111670485741117404858111757049581112780486851127704868411291048698112900486971130404871111886049710113280490260000000000011388049086107960480871143604913411435049133115060492161090904821711513049223109160482241158404939812162050399115930494121159204941111638049462116390494631166704949111666049490116830495071168204950611724049548123030505471172704955112308050552117340495581173504955911781049605117820496061178804961211787049611118370496611183804966211846049670124250506691189004971411889049713119940501171142004911812002050125120010501241201705014012018050141120470501701204805017112158050395121590503961216005039712161050398121830504251218405042612222050466122230504671227205051611692049516123220505661232105056512333050577123340505781239805064212399050643124160506601241705066112428050672124270506711245905070311880049704125250510781195505007812551051104125520511051257605112913137052128125880511411258905114212678051265126770512641269005127700000000000127230513931272405139412741051414127400514131275505142812756051429127780514521220705045112839051513122700505141293705161112367050611)
 (.leaf 1295805163212957051631129740516481240305064712995051669129940516681315905215013160052151133340524501333305244913380052496133790524951341105252713410052526134250525411342405254013444052560128850515591352805264413527052643135650526811300705168113575052691135760526921362105304313620053042136510530731365005307213671053093136700530921370305312513704053126138210533901382205339113886053457133410524571398205355313437052553140210535921402205359314135053706141360537071416805405014167054049141790540611417805406014234054116142330541151432005426000000000000143560543911490105539214381054420143800544191444405448313911053482144950545341396405353514522054561145210545601453205457114000053571145460545851401405358514592054631145910546301462605466514625054664147330550801419805408014747055094147460550931478405513115324056131147920551391479105513814803055150142680541501482505517214826055173149200554161544805641714932055428154600564291494305543914400054439149770554731443405447315138055634151370556331515805565415159055655151900556860000000000015262056069152630560701529905610615300056107153360561431533505614215428056390154290563911544205641115956057411154630564321597505743115476056445149490554451549905646815498056467155420565111554105651015593056562161060575621560905657815610056579156410566101564205661115662056631156610566301572205669115721056690157870570721578605707115804057089152830560901584705713215846057131)))
 (.node 2 (.node 1 (.leaf 1586605715115867057152158820571671588305716815885057170158860571711589205720816393058208159220573700000000000015949057404159480574031600505746115492056461160680575241606705752316089057545155760565451624405802900000000000163070580921580605709116340058125158400571251637205815715872057157163800581651638105816616439058381164400583821644805839016942059391165040584551650305845416635058586166360585871666405861516665058616168220591021729906010316860059140168590591391693405938316933059382170140594671701505946817020059473174880604721703705949017038059491170730595261707205952517083059536170840595371711205956517111059564171370595901713805959117181059634171800596331718705964017186059639172250596900000000000017255060047172540600461725606004817709061048173140601181731306011717356060160168800591601736906020617368060205173780602151737906021617411060386178520613861743206041600000000000175220605061705305950617581060565171110595641759006057418036061575176260606101762706061117672060656176730606571768406066800000000000177220610841772106108317786061148177850611471786106139500000000000178960614351834206243517902061441179030614421794506148417500060484179640615031796306150217974061513179750615141800506154418004061543180190615581846406255718106061645000000000001818906211417752061114181900621151775206111418197062122181980621231822906215418230062155182380621631823906216418245062170000000000001825306220618252062205)
 (.leaf 1833206242518331062424183400624331834106243418391062484188130634851844506253818444062537184910625841804506158418502062595185030625961851506260818516062609185340626271853506262818542062635185410626341858606309100000000000185950631001859406309918629063134186300631351868106321418682063215187290633930000000000018777063449187760634481877906345119186064451187900634621878906346118804063476188030634751909406422019095064221190990642251909806422419150064415187430634151922106448619222064487193310645961892406359619349064614189420636141972306556719722065566198610661321986006613119867066138198660661371991606620700000000000199390662301951806522920049066475204630674752006306648920064066490200710664971965406549820086066512204990675112012906655519710065554201910666172019206661820198066624197790656232025506711120256067112203080671642030906716520417067429200040664302043006744220431067443204750674872047606748820537067549205360675482056306757520149066575205920676042017706660320633067679206340676802066206810421072069104207540682102075306820920922068517209210685162098506858020984068579209980685932142406959221069069101214950701002109906913121100069132211310691632072206816421140069172211410691732117406921321173069212212520694202125106941921318069486208920684872136006952821359069527213740695422094706854221390069558209640685592139306956121394069562214200695882142106958921432069600214330696012156507017021139069171))
 (.node 1 (.leaf 2157307017821574070179215790701842115106918321629070238212000692392168207040921240069408216950704222169407042121718070445221660714442179007051721789070516218430705702140206957021885070612223350716132189007061721889070616219520711152195107111421965071128219660711292197607113921977071140219930711562244007215522052071220216110702202206107122922510072230221550714332170707043422173071451221740714522220607148422207071485222560715342180707053422350071628219020706292239607211121949071112224940722142249307221322525072245000000000002266107248922211071489226870725152268607251422701072529227000725282271907254722718072546227500725782320807357722864073131228650731322287107313822872073139228870731542243907215422908073175229090731762292507319222926073193230220733912347907439023040073409230390734082314607351523145073514231710735402317207354123192073561231930735622321707358622759072587233430741542334407415523355074166233540741652337207418323373074184234380743410000000000023467074378230080733772350707441823508074419235100744212351107442223526074437239880754372355107446223092073461235610744722310207347123575074486231180734872359507450623596074507236140745252361507452623640074551236390745502365507456623656074567236640745752366307457423681074592241430755922368807459923689074600237120746232371107462223784075134242420761342381907516923818075168238330751832383407518423857075211238560752102393507538423473074384)
 (.leaf 2394507539423944075393239570754062395607540523964075413239650754142402207547124480076470241180755672411907556824128075577245860765762416107561024162075611242300761222468307712324346076239248000772402443607642624435076425244390764292488707742924455076445249020774442446607645624465076455244870764772493507747724534076524240760755252454407653424085075534245950765852459607658624611076601241520756012464207663224183075632247390771792474007718024772077212247710772112482507736700000000000248450773872484407738624850077392244020763922487107741324423076413249280774702492707746924958077500249570774992497107751300000000000250120775542501107755325037077579250360775782512107811825120078117251370781342558007913525155078152251560781532516007815725602079157251860781832518707818425193078190247510771912520407820124760077200252080782052476407720425225078222256670792222527007837124829077371253030784042530207840325469078570254700785712552307862425522078623256190791742561807917325640079195251990781962564107919625200078197256780792330000000000025681079236000000000002570807937425709079375257110793772613708037625782079448257810794472583907950526265080504258670795332543107853225884079550254480785492589807956426326080565259120795782591107957726075080197256420791972608208020426083080205260840802062608308020526249080488262480804872628908052826288080527263210805602675908156126350080589263510805902652208121726955082216))))))))
 (.node 64 (.node 32 (.node 16 (.node 8 (.node 4 (.node 2 (.node 1 (.leaf 2652708122200000000000266250814272706108242726657081459270940824602673908154127176082542267810815832678208158426797081599267960815982680808161027243082609268780821392687908214026895082156273250831572691308217426912082173269980823642656108136327017082383265820813842704608241227047082413270690824352707008243627102082468271010824672711608248227547083483271220824882712108248727136082502271350825012719308255926758081560272620826282726308262927297083129272960831282744908338527450083386274680834042746708340327484083420274850834212762908356527199082565276570835932722808259427727084129277260841282775108415327752084154278000842022779908420127812084214282380852142787008437627869084375279550844612837408546127961084467283790854662802808453428027084533281240846302812308462928168085144277420841442827508536228274085361282780853652785908436528328085415287490864162835608544328355085442283840854712838308547028403085490279830844892840908549628408085495284650855522846408555128484085571284830855702850608559328507085594285400856272854108562828580086136281600851362860808616429023087164286160861722903008717128668086224290830872242884508651728844086516289070865792849308558028933086605289340866062895708662928956086628291140873692951608836929136087391291370873922920308747029202087469292290874962922808749529249087516288440865162927108753829270087537293450876122974408861329404088142294050881432947008820829867089208)
 (.leaf 2951708837029516088369295510884042914808740329562088415299570894152958608844829987089449296390885082963808850729665088534296640885332975508862429756088625297880891292978708912829807089148294110881492981708915829818089159298220891633022209016329855089196302540901952992208937929923089380299340893922993508939329950089408303480904082997908944129978089440299990894692999808946830029089499300280894983009808956830494090568301360896062973808860730149089619297500886193015608962629757088626302020901432980208914330300090359299010893583038209045030383090451304510905250000000000030460090534304590905333053109060530532090606306080911543060909115530625091171302310901723064809119430649091195306940913613069309136030798091489307970914883091209160330913091604309950921543060909115531000092159310010921603106109222000000000000311480924503114909245131191092500308080914993121509252431214092523313050926143130409261331357093135317310941343140209318031401093179316630935993166409360031721094124313460931243174509414831746094149317540941573175509415831811094214321730952143194109451131940094510323240955313232509553232350095557323510955583242509611332772097112324470961353279509713532489096177328370971773254909635832898097359325840964133293209741232603096449329680974503262509647832624096477327410965943310409759432760096613331220976123282209716232823097163328330971733283409717432839097179328380971783284109718133203098180))
 (.node 1 (.leaf 3286709720733229098206328880973493253909634832953097433000000000003302009751033019097509331460981233350809912333164098141331650981423322109819833583099198332350982120000000000033387098516333880985173353709915233538099153335440991593354509916033570099185339241001853365309942133652099420337780995503377709954933817099589338180995903385410011533855100116339611003503396010034934033100449343781014503407110049334070100492341051005273410610052834137100559341361005583422010113434219101133342281011423456510214134307101349343061013483436410143634365101437344341015133443510151434444101523341021005243444810152734106100528344491015283410710052934585102161345861021623469610243034695102429347071024413470610244034741102485347401024843474510248934744102488347561025003475510249934803102547000000000003490510315234906103153349271031743492810317534949103196346201021963508810350435087103503351071035233478010252435125103541000000000003517210358835173103589353051043493530410434835337104414000000000003537310445000000000000353851044713538410447035416104502350861035023544110452735111103527354461045323544510453135461104547354601045463555610514035555105139355741051583557510515935621105205356221052063564910538000000000000356961054443604610644535707105455357081054563575810551235426104512358101055643616510656535915106160362671071613592510617036275107169360321064310000000000036092106492357371054913611710651736118106518)
 (.leaf 3616010656000000000000361831065833650810758336293107187362921071863631110720536634108206363211073633632010736236356107431000000000003639810747336397107472364781075533615210655236514107589365151075903657510814736897109146366051081773692810917736618108190369401091893672910848636410107485368101085673680910856636888109137365651081373690410915336905109154370261094473735311044737041109462373691104633712710954837128109549372441101593757111116037250110165375761111653730011035436968109355373171103713731811037237368110462373691104633740811050237407110501374201105143741911051337483110577378011115783750011059437817111594375621111513787211215137615111204000000000003761911134600000000000376731114503798611244937693111470373761104703770911148637708111485377701115473745411054837797111574377981115753782211159900000000000379221122013823511320137961112377379601123763797911244237980112443380181124810000000000038096112559380971125603817211313838171113137381931131593819411316038221113187385301141873823311319938234113200383031134543862611445538340113491386621144913835811350938680114509384391135903844011359138518114175388331151753865511448438976115484386781145073867711450638729114558390501155583874111457039063115571387481145773874911457838856115198000000000003893711544538938115446389501154583894911545738957115465000000000003899211550039311116501390111155193868911451839083115591390841155923913211615839133116159)))
 (.node 2 (.node 1 (.leaf 3915711618339474117184391631161893948011719039170116196394871171973925611644639257116447392801164703896111546939292116482396241174823930311649339302116492393281165183932711651739347116537393481165383936411655439696117554394581171683978911816939518117370392021163703961611747439952118475396261174843962511748339649117507399831185063968911754739690117548397051175634004011856339753118133000000000003979211817240130119172398331183554017111935539842118364401791193633984611836839516117368398501183723952111737339852118374395211173733985611837839526117378398661183883953711738939868118390395391173913991211843500000000000399341184574027311945739959118482396241174824004811857140387119571401291191714046812017240138119180000000000004016711935140499120351401781193624051012036240187119371398491183714022011940440219119403403831195674071312056740417119601000000000004049512034740494120346405071203594082512135940599120451402671194514062412047800000000000406881205424068712054140763121141410781221404090412143840587120439409301214680000000000040951121489000000000004096912150740968121506409901215284099112152941074122136000000000004108712214940771121149411031221654141912316641192122412411931224134122412244441225122445412711224954159012349541284122508412831225074129012251441609123514412921225164161112351641417123164417351241654145512335641456123357415001234014118112240141558123463415571234624161712352241929124522)
 (.leaf 4179712438441798124385418691244570000000000041884124477421861254774192812452142231125522420641253474206312534642071125354423741263544209212537542091125374421961254874189412448742235125526425371265264225712554842558126547422831255744228412557542289125580419871245804233712616042338126161423441261960000000000042354126334420501253334238412636442680127363423901263704208812537142402126382424031263834243012641042127125410424711264544247212645542475126458424761264594253012651942824127520425451265344283712753342595126584425961265854260012658942299125590426181271424291012814142650127333423531263334270912739242708127391427941274904309012849042816127512428171275134282912752543126128526428331275294313012853042902127598429031275994293012816142637127161429691283584267612735942992128381426991273824302712841643028128417430431284354304212843443054128446427611274474311212851243113128513431511285514315012855043156128556431551285554321712915242922128153432391293314294212833143297129389430001283894331612940843019128408433761294830000000000043396129503436721305034341012951743118128518435431303464382013134543694130525436951305264371113054243993131542437371305684373813056944029131578440301315794408013216400000000000441071323504438913335044121132364441201323634413413237744135132378441511323944386913139444153132396438721313974415913240243877131402442211324684393913146844289132553442881325524445613341744457133418))
 (.node 1 (.leaf 4448713345344207132454445341335184453313351744581133565445821335664459013357444591133575446091335930000000000044658134337443771333384467113435044672134351447251344044444313340444726134405444441334054473713441644738134417448341345354512113553644847134548445641335484488613458700000000000448991351494518213614844972135365449711353644503813543144753134432450601354574477413445745150135565451511355664519613616244913135163452311363404494713534045253136362455311373614527313638245553137383453071364164530813641745317136426450331354264533313644645614137447453571364704535813647145395136526453961365274539813652945676137529454201365534541913655245500137330454991373294565713751045656137509457831383484551813734845809138374460621393744587813844645613137446459441385454619113954545986139155459851391544606013937246314140372461421394584614313945946176139519464261405194629214035046293140351462981403564654114135646327140385465701413854634314040100000000000463971404614614613946246465140571000000000004651514133046514141329465551413704680514237046573141388468231423884659614141146846142411466411414634639914046346662141513466631415144668714155446937142554467671423324676614233146804142369470611433694689614246746897142468469671431594696614315847053143361472901443604707414338247312144382471451434584688714245847171143515469151425154719014355347423144553472391441774723814417647302144372470631433714732314439347548145394)
 (.leaf 4732514439547549145395473271443974755114539747353144423471141434224737814445347140143453474641451734723514417347522145368477441463674755214539847551145397475881454344736414443447625145512476261455134764814555847871146558477181463414793514734047775146398477741463974779114641447569145415478731465604808514756148014147419477961464194806114751248062147513480841475604829514856048131148191000000000004813714832948136148328481721483644817314836548188148380481891483814821614840848004147409482251484174801214741748258148453482591484544827614851348277148514483031485684850514956948413149397482041483964844914943348448149432485041495684850514956948538150193000000000004859115037048788151369486151503944841114939548618150397486171503964870015056248699150561487541513354855615033548815151396486161503954888615151848887151519489491523404894815233948982152373489811523724899315238448994152385490451524364904415243549132153332491311533314916215336248971152362491981533984938115439849224153424490331524244932215433949139153339493871544044957015540449460154568496391555694952015535449700156354495451553794936315438049547155381493641543814955915539349376154393496761563304967515632949688156342495091553434968915634349509155343496921563464951215534649704156358498871573594980115651549990157515499441574165013915841549964157436501601584365002615819200000000000501071583835030715938350328159404505241604035033515941150336159412))))
 (.node 4 (.node 2 (.node 1 (.leaf 5038615946200000000000504941603735049316037250561160440503651594415068316136050889162360507091613865070816138550881162352510811633525092216239350715161392509431624145094416241550980162451511801634515098416245550985162456512191642055102616320651234164220510411632215133916441651145163416513411644185134216441951462165348516541663485147816536451671166365515101653965131816439551558165444517501664445161816622151619166222516301662335163116623451636166239516371662405165116634551835167345516561663505184016735051726166420515341654205173216642651540165426517391664335192216743251754166448519381674485175916645351760166454518121672305162716623051816167234516311662345182816733800000000000518531673630000000000051894167404520801684045216116920851976168208521711692185198716821952213169345522121693445223616937652414170376522681694085226716940752301169441521171684415230316944352482170444523131694535249217045452351170210521631692105236317022252364170223523921702515220416925152423170385524221703845244617040852445170407524781704405247917044152539171226527041722255255517124252383170242525571712445238517024452569171256000000000005275217239252911173392527561723965275717239752775172415527741724145286617322852865173227528741732365287517323752899173380528981733795293117341252772172412530101742165301117421753014174220530151742215306117438753062174388530801744065324317540653154174594531551745955318117522553346176226)
 (.leaf 5321617537900000000000532371754005323617539953278175441534441764425330517558453304175583535061772185350717721953547177259000000000005357117740153570177400535831774135358217741253586177416535851774155359617742653595177425536071774375360817743853769178419537701784205379017844053791178441538081785660000000000053866179217540481802185390217925354084180254539191793855391817938453995179581541761805805404118021154042180212540771802475425318124754155180439543351814395417018056654171180567541871805915418818059254215181209544061822105421718121154408182212542431812375443218223654259181253544491822535427718138154276181380542891813935448218239354298181402541171804015430018140454119180403544421822465444318224754502182413545011824125451018242154511182422545421825675454318256854633183243548381842435464118325154846184251546481832585464918325954657183267544631822675469518341254694183411547081834255451418242554751183589549541845895483718424254838184243548851843965509218539655076185380000000000005518818563654979184636552101862075542718720755267186264550581852645531818641355108185412553421864375534318643855353186569551461855695548818726855272186269555081873845571018838455528187404555271874035554218741855744188418556271882045582018920555634188211558261892115563918821655640188217556561882335545318723355692188269554891872695572118839555519187395558001886445580118864555838189223556471882245607419027255888189273))
 (.node 1 (.leaf 5608519028355899189284561441904365614519043756229191241560421902405623619124856050190248562381912505605319025156274191286560881902865631619142256129190421563451916360000000000056409192229564101922305648019239456288191394564841923985629219139856522192436565231924375668119341056496192410566911934205669019341956739193644569281946435676919421556770194216568061942525661819325256824194270568251942715684419429000000000000568451943850000000000056859194399566701933995686819440856679193408568901944305689119443156924194639569231946385694919520456758194204570191952745682819427457051195400568601944005705219540156861194401570531954025686219440257075195424572701964255714619620656951195206571691962295697419522957280196435570861954355736819721957159196219573701972215737119722257390197241571801962405742119727257212196272574481973955724019639557458197405572501964055746619741357258196413575781982385738719723857655198411574651974125773619922457565198225579112002365774819923658060201226580612012275812820139458127201393581562014225831020242158232202242580762012425823320224358076201242582622022725826320227358292202403581372014035835620321458355203213583872032455823420224458390203248582392022495846420342458624204424584692034295862820442858474203434584752034355848020344000000000000585112042105851220421158529204228583702032285860520440558767205405586742052125851320421258683205221586842052225871620525458554204253)
 (.leaf 5874220528058743205281587962054345863520443558885206263587252052635888620626458726205264588942062725889520627358923206402589242064035901820723358854206232590232072385885920623759092207408592632084075918120822459010207225592382082815923920828259270208414592692084135929320843759122207438593142086225913920762259386209255593872092565949820962959499209630595572102565938820925759594210394597732113955975721128059758211281597612113830000000000059768211390599532123905977621139859961212398597812114035996621240359846211622598452116215988321222159884212222599402122785994121227960009212453598212114526002921261759841211617600542126455986121164460102213245602932142456010421324760294214246602952142476029421424660365214418603642144176043821464460247213643606212156426043521464160672216247606712162466068721626260686216261606942162696050421526960714216391608992173916071521639260900217392607762166106077521660960805216639606182156396084221723161017218231608462172356066121623661064218278610652182796113921861661138218615611502186276114921862661209219242612102192436126021939761080218398612682194056126721940461292219429000000000006129521944961294219448613162196096131521960861390220242613912202436144522040261446220403615132206206132721962061517220624613312196246153722064461536220643615462206536174222165461568221230617662222316156922123161766222231615782212406157922124161601221263614102202626160422126661414220266)))
 (.node 2 (.node 1 (.leaf 6161822138600000000000616352214036163622140461656221424618512224246168822160061687221599617752222406177622224161816222389618152223886188922260961888222608619332226536174122165361949223219000000000006197022324061971223241619842232546198522325561992223262619912232616205522344962054223448621082236336191322263362176224252623692252526219722427362004223274622172244036221822440462267224596620702235956236022524362361225244623752252586237422525762393225388000000000006243222542762620226427624822256226248122562162549226242625502262436256122625462560226253626392265926245222559262690226643628682276426270422665762518225658627232272316253922623262780227407626012264086278622741362787227414628042274470000000000062873227647630492286466290922823862910228239629482283986312722939962970228420629712284216300722860463008228605630172286146284022761463021228618630202286176312522939763303230397632152296346339023063563216229635633902306356326023023063261230231632672302376344223123863311230405634842314056333123042563504231425633482305936317322959263382230627633832306286339123063663558231636634012306466340023064563459231255634582312546347423139563640232395635552316336371823263363670232425000000000006367823259363839233592637192326346388123363463772233238639362342396382223341563821233414638582336116402023461163937234240641022352416395123425463950234253639722344026397123440164039234630640402346316406823465964067234658)
 (.leaf 6419023561864351236618642202356486421923564764223235651643842366516422823565664229235657642542362316441623723264337236604644952376046434923661664507237616643562366236451423762364485237594646402385946449323760264494237603645172376266467223862664526237635643672366346454923765864703238657645692382266457023822764655238609646562386106466623862064817239620646942386486484523964864754239256647552392576476523940164766239402648012396046495124060564837239640646852386396487624022864877240229649272404136492624041265002240656650012406556501924122265020241223650312412346503224123565076241413650752414126529624265565149241654653162432236545924422365380243595655192445946540124361600000000000654132436286554524462765419243634654202436356549024425465491244255655652446476556424464665604245236656052452376560924524165731246241656152452476561424524665764246414000000000006580924665365808246652658732474100000000000065879247591659842485906591424764665913247645660472492326613025023366121250224661932512256613725024066138250241661602506436609024964366165250648661642506476617325065666172250655662082512406620925124166231251650662912526496626525223466203251235663762542226643825522366425254710664242547096655525722266556257223666762602196664125922066865265226000000000006693526722366936267224670512712226705227122367099273218671002732196720527821967206278220672102782240000000000067248280218672492802196729928322167300283222))
 (.node 1 (.leaf 2735108318327782084184282020851782820308517929845089186298460891873140809318631027092186000550132960005601329700142014292002740152930034501621800346016219004880171890000000000000516017217005170172180055301725400552017253005540172550038101625500555017256003820162560055601725700383016257005570172580038401625800558017259003850162590058901729000416016290006040173050060501730600724018234005320172330075001826000559017260007510182610056001726100752018262005610172620095601924800955019247009710192630075301826300973019265007550182650097401926600756018266010170193090101801931001026019318010270193190119102026700975019267011920202680097601926801194020270009780192700121502029101000019292014080212710119502027101666022304016670223050185002327201634022272018510232730163502227301852023274016360222740187702329901662022300020130242310201202423002051024269018470232690207902429701874023296022420252750205702427502243025276020580242760227902531202280025313024470262770224402527702448026278022450252780244902627902246025279024500262800224702528002451026281022480252810245402628402251025284024600262900225702529002463026293022600252930246502629502262025295027020273110248102631102753027566027520275650333003025303329030252033360302590354203125803437030552032040295530345703057203456030571035520312680355103126703753032251037520322500376703226503766032264038030323010380403230203879032567038800325680392103311100000000000)
 (.leaf 401503326404014033263041170335470411803354804122033552041210335510416103359104160033590042130341300421403413104384034531043850345320441403456104415034562044830351100000000000004822036144000000000000492003629004921036291049860365260000000000004993036533049940365340503603657605037036577050420365820504103658105050036590050490365890506303660305064036604051070366580000000000005137037132051360371310518703720005186037199052250372690558803826805341037547053400375460534803755405347037553054740380470000000000005578038258000000000000574003857105739038570058070386380542803763705815038646058160386470581803864905819038650060330393010603403930206078039494000000000000610403952106105039522061450395620573103856206408040205000000000000645004027106953041270065160404140606503941406596040550061340395510662604058006627040581066990406530623603965306722040676067230406770683504111306834041112068660411460000000000006956041273074810422720695704127407482042273069580412750748304227406959041276074840422750696004127707485042276069730412900697404129107022041417070230414180716404160507165041606071830416240667004062407224041665072250416660726604170906751040708072980420460729904204707467042258000000000000748704227808034043277074920422830804004328307553042423075540424240760704249907606042498076250425180818104351707646042539076450425380771604260907715042608077510426440775204264507814042707078130427060783104300400000000000)))))
 (.node 8 (.node 4 (.node 2 (.node 1 (.leaf 784804304207847043041079140431080791304310707918043112073640421120795104315100000000000080260432690802504326808201043537082000435360822004355608221043557082690436050884104460608295043631082940436300832704366308328043664084470440830844604408208492044128084930441290852804416407955043163085970442640859604426308613044280091880452800864504440308646044404087700445350819904353508784044549082120435480881204457708813044578088440446090884304460808856044621088570446220886904463408868044633088760446410887704464208930044695089290446940898004504408979045043091070451710910604517009171045263091700452620921504539909791046400092200454040979604640509255045439092560454400937404556709375045568093850455780938604557909401045594094020455950941604560909415045608094310456240886004462509433045626088610446260947004566309471045664094770456700890504467009567046054101540470530960604609309028045092096550461420965604614309716046219097150462180980504641410407047414098720464850987104648410044046658106520476591007604669010075046689100930467071070004770710169047068101680470671021404711310215047114102220471211022104712010467047474110670484741048804749510487047494105230475301052404753110533047540105320475391058204758911182048589105890475961059004759710624047631100180466321064104764810640047647107950480861079604808710909048217103010472181091604822400000000000110020484001100304840111026048424116060494251104304845011042048449)
 (.leaf 1114604855311147048554111530485601115404856111167048574111680485751127704868411276048683112900486971187304969711420049118114210491191143504913311434049132115420492761154304927711592049411115910494101163904946311057048464116820495061168104950511735049559117360495601175704958111758049582117820496061236305060711787049611117860496101188604971011885049709118890497131247005071412001050124120000501231201805014112019050142120480501711261905117212159050396127270513971216105039812729051399121620503991216305040012184050426121850504271222305046711643049467122700505141227105051512303050547128730515471230805055212309050553123210505651232005056412399050643129690516431240305064712402050646124170506611241805066212427050671124260506701255205110512553051106125890511421259005114312677051264126760512631272405139413280052394127400514131217105041312756051429000000000001295705163113515052631130070516811300805168213137052128137050531271333305244912774051448133410524571278305145713379052495133780524941341005252613409052525134240525401342305253913527052643129690516431357605269213577052693136200530421415905404113650053072130810520721367005309213101052092137040531261424505412713822053391138230533921391105348213367052483140220535931402305359414136053707135920527081416705404914166054048141780540601471205505914198054080141970540791423305411514232054114142680541501372805315014380054419149230554191440005443913867053438))
 (.node 1 (.leaf 1443405447314433054472145210545601398805355914746055093147450550921479105513814790055137148260551730000000000014901055392149020553931494905544514406054445151370556331513605563215159055655151600556561526305607015786057071153000561071530105610815335056142153340561411542905639115430056392154600564291546105643015498056467154970564661554105651015540056509156100565791508305557915642056611156430566121572105669015192055689158060570911580505709015867057152158680571531587205715715871057156158830571681588405716915886057171158870571721594805740315947057402159560574111595705741216067057523160660575221610605756216105057561163810581661638205816716393058208163920582071644005838216933059382165030584541650205845316636058587166370585881666505861616161057617168590591391685805913816880059160163760581611694205939116943059392170150594681701605946917038059491175080604921705305950617054059507170720595251754006052417084059537170850595381711105956417110059563171380595911713905959217180059633166810586321718605963917185059638172540600461725306004517299060103173000601041731306011717312060116173680602051736706020417379060216173800602171750006048417501060485176270606111762806061217673060657181190616581770906104817708061047177210610830000000000017752061114177510611131778506114717784061146178520613861830006238617903061442179040614431796306150217517060501179750615141797606151518036061575180370615761819806212317762061124)
 (.leaf 1823006215518231062156182390621641824006216518252062205182510622041833106242418751063423183410624341876306343518342062435183430624361844406253718443062536185160626091851706261018541062634189620636341859406309918593063098186300631351821106213618682063215186830632161874306341518321062414187760634481918206444718789063461183670624601880306347518802063474188130634851881406348618924063596185030625961894206361418521062614190980642241869106322419186064451191850644501922206448719223064488195180652291910306422919654065498192330644981971006555419709065553197220655661972106556519779065623197780656221986006613119445065130200040664302000506643120064066490200650664912014906657520150066576201770666032017606660220192066618201930666192025606711220257067113203090671652031006716620431067443204320674442046306747520462067474204760674882047706748920499067511204980675102053606754820121066547206340676802063506768120722068164207230681652075306820920752068208208920684872089306848820921068516209200685152094706854220946068541209640685592054606755820984068579214100695782107206910421071069103211390691712073006817221141069173211420691742117306921221172069211212000692390000000000021240069408216800704072125106941921250069418213590695272135806952621394069562213950695632140206957020976068571214210695892186307059021433069601210060686012149507010000000000000215740701792114806918021611070220211820692212169407042122142071420)))
 (.node 2 (.node 1 (.leaf 2170707043421708070435217890705162178807051521807070534213650695332188907061621888070615219020706292190307063021949071112223980721132195107111422399072114219660711292196707113021977071140219780711412216607144421716070443221740714522217507145322207071485222080714862233507161322336071614224930722132249207221222510072230225110722312268607251422685072513227000725282269907252722718072546227170725452275907258722760072588228650731322241807213322872073139228730731402290907317622462072177229260731932292707319423008073377230070733762303907340822579072407230920734612309107346023102073471226440724722311807348722659072487231450735142314407351323172073541231730735422319307356222735072563232080735772320707357623344074155233450741562335407416523353074164233730741842291807318523473074384234720743832350807441923509074420235110744222397307542223596074507231370735062361507452623616074527236390745502410007554923711074622241720756212381807516823817075167238340751842383507518523856075210238550752092394407539323482074393239560754052349307440423988075437244480764382407607552524077075526240850755342362207453324143075592246030765932416207561124622076612241830756322418407563324242076134246940771342440207639224401076391244230764132396507541424435076425248820774242446507645524464076454245860765762458507657524596076586245970765872468307712325127078124247400771802474107718124760077200000000000002477107721124770077210)
 (.leaf 2480007724025243078240248290773712483007737224844077386243950763852488707742924886077428249020774442490107744324927077469253670784682493507747724934077476249570774992450807649825011077553250100775522503607757825476078577251200781172556207911725156078153251570781542518707818425188078185251990781962520007819725302078403248610774032543107853224990077532254480785492544707854825470078571254710785722552207862325521078622255800791352558107913625618079173256170791722564207919725201078198256670792222610108022325781079447257800794462591107957725910079576260830802052565007920526248080487266840814862626508050426264080503263260805652632708056626351080590263520805912656108136326560081362265820813842701908238526758081560267590815612678208158426346080585267960815982679508159726879082140268800821412691208217326911082172269550822162695408221527047082413270480824142707008243627071082437270940824600000000000027101082467271000824662712108248700000000000271350825012713408250027176082542271770825432719908256527200082566272430826092767308360927263082629272640826302729608312826866082127273250831572732608315827450083386270200823862746708340327896084402274850834212791608442227547083483275480834842772608412827295083127277990842012779808420027859084365278580843642786908437527439083375279830844890000000000028027084533280260845322816008513628161085137282380852142865808621428355085442283540854412837408546100000000000))
 (.node 1 (.leaf 2837908546628794086466283830854702838208546928464085551280450845512848308557028064084570284930855802849408558128507085594280880845942874908641629161087416288440865162884308651528934086606289350866072902308716429024087165290300871712943308817129083087224290840872252913708739229138087393291480874032914708740229202087469292010874682922808749529625088494292700875372886408653629405088143290030871442941108814929008087149295160883692991208936929664088533296630885322975008861929352087619297560886252975708862629787089128297860891272980208914329803089144299230893802992408938129935089393299360893942995708941529958089416299780894402997708943929987089449299880894502999808946829997089467300280894983042309049730222090163306170911633023109017230232090173303480904083073809140830383090451303840904523045909053330062089532304940905683049309056730532090606301370896073060909115530215090156306930913603069209135930797091488307960914873080809149900000000000309130916043091409160531001092160310020921613102709218630640091186311490924513152309345231214092523312130925223130409261330921091612313460931243134709312531401093179314000931783166409360031665093601317310941343173009413331746094149321090951503175509415831756094159319400945103157309350932173095214325260962143232509553232326095533323510955580000000000032539096348325380963473262409647732623096476327720971123242309611132795097135327940971343282309716332476096164)
 (.leaf 3283409717433198098175328980973593289909736032932097412332880984123296809745033326098451330190975093301809750833104097594331050975953312209761233482098611331650981423352609914133203098180335640991793322909820633591099206333880985173302809751833508099123338611001223353809915333176098153335450991603354609916133583099198339371001983365209942033295098420337770995493377609954833818099590338190995913385510011634202101116339241001853427010118433960100349339591003483407010049233719099491341021005243410310052534106100528341071005293413610055833786099558342191011333455710213334306101348346421023473436510143734703102437343781014503471710245134435101514344361015153456510214134893103140345861021623458710216334620102196346191021953469510242934694102428347061024403470510243934740102484344041014833475510249935082103498347801025243444510152434906103153349071031543492810317534600102176350871035033508610350235111103527347841025283517310358935174103590353041043483530310434735384104470353831044693542610451235427104513354451045313511510353135460104546000000000003555510513935554105138355751051593557610516035622105206000000000003570810545635709105457357371054913540410449036046106445363711074463611810651835765105519361521065523615110655136165106565364901075653627510716936597108169362921071863629110718536320107362366431083613639710747236715108472364101074853608510648536508107583365071075823651510759036190106590))))
 (.node 4 (.node 2 (.node 1 (.leaf 3656510813736242107136366341082060000000000036897109146372311101463690510915436583108155369281091773726211017736940109189372731101883696810935500000000000371281095493745511054937318110372376451113723736911046337686111463373761104703737711047137407110501377241115013741911051337091109512374541105483745511054937571111160375721111613757611116537577111166377081114853770711148437798111575377991115763781711159437818111595378721121513818511315137960112376379591123753798011244337981112444379861124493829811344938097112560380981125613817111313738170113136381941131603819511316138234113200382351132013844011359138762114591385301141873884511518738626114455386271144563866211449138661114490386771145063899711550538680114509386791145083868911451838366113517387491145783875011457938833115175391501161763893811544638618114447389491154573926711645738961115469386401144693897611548438975115483390501155583936911655939063115571393811165713908411559238763114592391331161593913411616039257116447392581164483930211649239633117491393271165173932611651639348116538000000000003948011719039810118190394871171970000000000039516117368395171173693952111737339205116373395261173783920911637739537117389395381173903953911739100000000000396901175483969111754939696117554400311185543978911816940128119170398491183713951911737139952118475399531184763998311850639982118505400401185634004111856440130119172404681201724017111935540504120356)
 (.leaf 4017911936340510120362402191194034021811940240267119451399281184514027311945700000000000403871195714038811957240494120346404931203454049912035140817121351405871204394058812044040687120541410031215414071312056741029121567407711211494077212115040825121359411391223594096812150641281122505409911215294099212153041078122140413931231404118112240140867121401411931224134119412241441225122445409121214464128312250741282122506414191231660000000000041456123357414571233584155712346200000000000415901234954190212449541609123514419221245154161112351641924124517417351241650000000000041798124385417991243864189412448741581123486419291245224223112552241987124580416751235804206312534642062125345420881253714178512437242091125374420901253734212712541041823124410421861254770000000000042284125575419821245754229912559041997124590423531263334205012533342374126354426711273544240312638342404126384424721264554247312645642476126459000000000004253712652642831127527425961265854229412558542637127161426381271624267612735900000000000426801273634267912736242699127382427001273834270812739100000000000427611274474276212744842817127513431131285134282412752043121128521428371275334283612753242903127599000000000004291012814100000000000429221281534292312815442942128331429411283304300012838942706127389430191284084272512740843028128417430291284184304212843443041128433430901284904309112849143118128518431191285194312612852643127128527))
 (.node 1 (.leaf 4315012855043443129550431551285554344712955443672130503436711305024369513052643696130527437381305694373913057043820131345441011323444386913139443870131395438721313974359413039743877131402436001304034393913146800000000000439931315424427713254144030131579443151325794412013236344119132362441351323784441713337844207132454439261314544437713333844378133339443891333504467213435144443133404441611324044444413340544162132405444571334184445813341944533133517445321335164458213356644866134567445911335754487513457644753134432000000000004477413445744775134458449131351634491413516444947135340446611343404497113536444970135363450331354264474713442645121135536454051365364515113556645434136567451821361480000000000045308136417450241354174535813647100000000000453961365274567413752745499137329457631383284551813734800000000000455311373610000000000045613137446456141374474565613750945655137508456761375294567713753045985139154457291381534606213937446061139373461911395450000000000046293140351462941403524639914046346400140464464261405194666814151946514141329467641423294654114135646791142356465701413854682014238546663141514469151425154676614233146765142330468051423704706214337046823142388470801433884684614241147103143411468871424584663614145846897142468466461414684696614315846965143157470611433690000000000047140143453471411434544723514417347236144174472381441764698314317547290144360475141453604731214438247536145382)
 (.leaf 4736414443447127143435474231445534764314555347548145394477721463954754914539547773146396475511453974755014539647569145415475701454164762614551347849146513477441463674796114736647774146397477731463964787114655848083147559479351473400000000000048004147409477871464104801214741748013147418480621475134806314751448085147561482951485604813614832847923147328481731483654838214936648189148381481901483824825914845448260148455482771485144827814851548448149432482401484324850514956948506149570486161503954841114939548617150396484111493954869915056148894151561487881513694897715236848887151519488881515204894815233948947152338489711523624897215236348981152372489801523714899415238548995152386490441524354885415143549131153331491301533304913915333949138153338493631543804936415438149381154398493801543974950915534349327154344495121553464932915434649570155404495691554034963915556949816156569496751563294967415632849700156354498821573544988715735950083158359499901575155019115851650139158415503391594155016015843650360159436503071593835050416038350336159412505341604135036515944150164158440504931603725049216037150524160403505231604025070816138550707161384507151613925051316039250889162360510891633605094416241550945162416509851624565098616245751026163206000000000005104116322151042163222510811633525127516435251145163416509451624165118016345151181163452513181643955112416339551342164419511481634195153416542051344164421)))
 (.node 2 (.node 1 (.leaf 5154016542651349164426516191662225162016622351627166230514331652295163116623451438165234516371662405163816624151654166348516551663495167116636551855167365517501664445193416744451835167345518361673465184016735052032168350519221674325192116743151938167448521251684495197616820851790167208519871682195180216722052080168404522631694035211716844152118168442521631692105197816821052204169251520191682515221216934452400170344522671694075244517040752364170223523651702245238317024252195169242523851702445219816924552414170376000000000005242217038452583171383524791704415264117144152482170444526441714445277417241452773172413528651732275270517222652875173237528761732385289817337900000000000529111733925306617439253011174217530121742185301517422153016174222530621743885322517538853155174595000000000005323617539953401176399532431754065324217540553304175583533031755825334617622653514177226534441764425361217744253507177219535081772205357017740053569177399535821774125358117741153585177415534161764145360817743853789178439537701784205359017742053791178441537921784425391817938454100180384540421802125404318021354048180218540491802195408418025454260181254541191804035411818040254171180567000000000005417618058054175180579541881805925418918059354253181247544431822475433518143954528182439544061822105460018321054408182212546031832135444918225354450182254544631822670000000000054501182412545001824115451118242254512182423)
 (.leaf 5454318256800000000000546491832595465018326054838184243548391842445495418458955162185589549791846365497818463555058185264548591842645510818541255107185411551461855695494118456955272186269552731862705534318643855344186439554271872075562918820655489187269554901872705552718740355307186402556401882175564118821855647188224554441872245571018838455709188383557441884185593618941855801188645558021886465588818927355887189272558991892845570718828456042190240560431902415605019024856049190247560881902860000000000056129190421561281904205614519043756146190438562881913945610219039456292191398561051903975641019223056218191230564961924105649719241156523192437000000000005661819325256431192251566701933995648519239956679193408564931924075669019341956505192419567581942045656919320356770194216565831932175682519427156637193271568281942745664019327456860194400566711934005686119440156672193401568621944025667319340256891194431568921944325692319463800000000000569281946435711919564256951195206567601942065697419522956784194230571591962195696419521957180196240569841952395721219627257017195272572401963955704519539457250196405570561954055727019642500000000000573711972225756219822257387197238571781962385746519741257258196413575651982255737419722557748199236575761982365807620124257918200243581272013935796920039258137201403581382014045823420224458078201244582392022495823820224858310202421584602034205835520321358203202213))
 (.node 1 (.leaf 5837020322858218202228584752034355832420243558513204212585122042115855420425358394203252586242044245878620542458628204428587912054295863520443558636204436586842052225852320422258725205263585642042635872620526458564204263587432052815874420528258767205405589262064055885420623258694205232588592062375885820623658924206403590882074045901020722558847206225591222074385912320743959139207622591382076215923920828200000000000592632084075926220840659269208413594412094125938720925659213208256593882092575921520825859499209630000000000005977321139559958212395598212114520000000000059841211617596582106165984521162159662210620598612116445967521064359884212222600792132225994121227959942212280599532123906014621339059961212398601542133985996621240359967212404602472136436024621364260293214245604792152446029421424660480215245603642144176017321341760435214641000000000006050421526960318214270606182156390000000000060661216236604722152376067121624660856217245606862162616087221726160775216609607742166086089921739160900217392610172182316101821823261065218279612472192806108021839860907217399611382186156132221961561149218626611482186256121021924300000000000612942194480000000000061315219608613142196076132721962061328219621613312196246114821862561414220266614132202656144622040361267219404615362206436134921964261579221241615802212426168722159961491220598617412216536174222165461766222231617672222326177622224161777222242)
 (.leaf 6181522238861814222387618512224246185222242561888222608620822236076191322263361914222634619712232416197222324261991223261617952222606200422327462005223275620542234486205322344762070223595620692235946221822440462219224405623742252576237322525662452225592624512255916248122562162480225620625182256586270622665962539226232627252272336255022624362551226244625602262536255922625262601226408624132254086262022642762800227427627872274146260722641462840227614628392276136286822764263045228642629102282396309122924062971228421629722284226300822860563009228606630202286170000000000063049228646632272296466312722939963128229400631732295926317222959163261230231634362312326330323039763304230398633832306286355123162963390230635635572316356344223123863443231239634582312546345723125363484231405636502324056350423142500000000000635582316366372123263663640232395638022333956371823263363880233633638212334146382023341363839233592640002345916388123363464043234634639362342396410123524063950234253639492342526397123440163970234400640202346116418423561264040234631640412346326406723465864066234657641022352416426423624164219235647643792366466435123661864509237618643842366516454223765164416237232644172372336449423760364649238603644952376046465123860564507237616646612386156451423762364669238623645702382270000000000064640238594646392385936465623861064807239610646722386266482323962664685238639000000000006470323865764854239657))))))
 (.node 16 (.node 8 (.node 4 (.node 2 (.node 1 (.leaf 6475523925764905240257647662394026461323840264817239620649672406216484523964864994240648648772402296472723922964926240412650742414116495124060564952240606650202412236517024222465075241412650742414116514924165465000240654654202436356555324463565459244223654602442246551924459465378243593655642446466556324464565605245237656062452386561424524665735246245657312462416573024624065808246652658072466516591324764566012248645659842485900000000000066090249643660102486436613025023366131250234661382502416620925124166172250655661712506546619325122566257252226662032512356620425123666291252649662292516486642425470900000000000664382552236643925522466641259220666422592216693626722466937267225670522712236702327022367100273219671012732206720627822067229279221672492802196725028022067300283222000000000001584605713115845057130282030851792820408518000056013297000570132980034601621900347016220003810162550000000000000382016256000000000000038301625700000000000003840162580000000000000385016259000000000000041601629000271015290005170172180051801721900532017233000000000000055201725300551017252005590172600038601626000560017261003870162610056101726200388016262006050173060060601730700753018263005620172630075501826500564017265007560182660056501726600955019247009540192460097501926700757018267009760192680075801826800978019270007600182700100001929200782018292010180193100080101831101027019319000000000000119502027100979019271)
 (.leaf 163402227201409021272016350222730141002127301636022274014110212740166202230001438021301016670223050166802230601847023269016310222690187402329601659022297020120242300201102422902057024275018530232750205802427601854023276022440252770205902427702245025278020600242780224602527902061024279022470252800206202428002248025281020630242810225102528402066024284022570252900207202429002260025293022610252940226202529502076024294022800253130209602431402481026311024820263120275202756502751027564032040295530320502955403329030252033280302510345603057103455030570035420312580375903225703551031267035500312660375203225003751032249037660322640376503226303804032302038050323030388003256803881032569040140332630401303326204118033548041190335490416003359004159033589042140341310000000000004385034532043860345330441503456204416034563049210362910492203629204994036534049950365350503703657705038036578050410365810472603558105049036589050480365880506403660405065036605051360371310513503713005186037199055460381990534003754605339037545053470375530534603755205428037637054270376360558803826805999039267057310385620573003856105739038570057380385690581603864705439037648058190386500582003865106034039302000000000000606503941406066039415061050395220610603952306134039551061330395500623603965306237039654066270405810662804058206670040624062080396250672304067706724040678067510407080000000000006834041112000000000000695304127006952041269))
 (.node 1 (.leaf 697404129106975041292070230414180702404141907165041606066530406070722504166607226041667072990420470730004204807364042112073630421110748504227607484042275075540424240755504242507606042498000000000000764504253807096041537077150426080771404260707752042645077530426460781304270607812042705078470430410784604304007913043107079120431060795504316300000000000080250432680802404326708034043277086090442760804004328308616044283081810435170875104451608200043536081990435350821204354808211043547082210435570879304455808294043630082930436290832804366408329043665084460440820844504408108596044263085950442620864604440409221045405088130445780881404457908843044608088420446070885704462208287043623088600446250886104462608868044633088670446320887704464208878044643089290446940892804469308979045043089780450420910604517009105045169091700452620916904526109188045280097620462790925604544009257045441093750455680880304456809386045579093870455800940204559508831044596094150456080941404560709471045664094720456650965604614300000000000097910464001039404740109796046405103980474050987104648409870046483100180466321001904663310075046689100740466881015404705310153047052101680470671016704706610215047114102160471151022104712010220047119103010472180971504621810407047414104060474131048704749409880046493105240475311112504853210532047539105310475381059004759710591047598106400476471063904764610652047659106530476601070004770710699047706)
 (.leaf 1079604808710797048088110030484011100404840211147048554117310495551115404856111737049561111680485751175104957511182048589111830485901127604868311275048682114210491191082804811911434049132114330491311154304927711544049278115910494100000000000011606049425116070494261168104950511098048505117360495601173704956111758049582123390505831178604961012365050609118730496971245305069711885049709124640507081200005012311424049122120190501421202005014312163050400121640504011217105041312170050412121850504271218605042812271050515116920495161230905055312310050554123200505641231905056312363050607123640506081241805066211838049662124260506701242505066912470050714000000000001255305110612554051107125900511431259105114412619051172131820521731267605126312675051262127270513971272805139812729051399132850523991277405144812203050447127830514571221205045612969051643129700516441300805168212438050682130810520721308005207113101052092131000520911328005239413279052393133670524831336805248413378052494133770524931340905252513408052524134230525391396705353813515052631135160526321357705269313578052694135920527081359305270913705053127137060531281372805315013160052151138230533921435805439313867053438133210524371398805355913987053558140230535941402405359514159054041146930550401416605404814700055047141970540791365705307914232054114142310541131443305447213900053471147120550591525205605914745055092142090540911479005513714789055136)))
 (.node 2 (.node 1 (.leaf 1490205539314903055394149230554191545005641915083055579150840555801513605563215135055631151600556561568805665715192055689000000000001530105610815302056109153340561411533305614015430056392159440573921546105643015975057431154970564661549605646515540056509160520575081564305661216157057613157860570711578505707015805057090152830560901586805715315346056153158710571561535005615715884057169163850581701588705717200000000000159470574020000000000015957057412164650584131606605752216065057521161050575611559205656116376058161163770581621638205816716383058168163920582071689305920616502058453165010584521663705858816133057589166810586321668005863116933059382174070603821694305939216944059393170160594691701705947017054059507165560585071708505953817086059539171100595631710905956217139059592176090605931718505963817184059637172530600451770606104517300060104173010601051731206011617311060115173670602040000000000017380060217173810602181750106048517502060486175080604921750906049317517060501175160605001754006052417539060523176280606121762906061317708061047177070610461775106111317750061112177620611241776306112517784061146177830611451790406144317459060443179760615151797706151618037061576175920605761811906165800000000000182110621361777406113618231062156186520631571824006216518241062166182510622040000000000018300062386182990623851832106241418322062415183430624361876506343718367062460183660624591844306253618442062535)
 (.leaf 1850306259618504062597185170626101807106161018593063098190010640971868306321618684063217186910632240000000000018751063423187500634221876306343518764063436188020634741880106347318814063486188150634871896206363418961063633191030642291910206422819182064447196020654461918506445019606065450192330644981882506349719445065130194440651291970906555319708065552197210655651930006456519778065622197770656212000506643120006066432200650664911964806549220150066576197320655762019306661920194066620202570671132025806711420432067444204330674452046206747420878068473204980675102008306650920546067558201320665582063506768120636067682207230681652031006716620730068172207310681732075206820820751068207208930684882047706748920920068515209190685142094606854120945068540209760685712055906757121006068601210070686022107106910321498070103211420691742114306917521148069180211490691812117206921121171069210211820692212118306922221250069418212490694172135806952621357069525213650695332136406953221395069563213960695642141006957821851070578217080704352170907043621788070515217870705142186307059021423069591218880706152233707161521903070630000000000002196707113021526070131219780711412197907114222142071420225920724202217507145321726070453222080714862220907148722336071614227860726142239807211322399072114224180721332197107113422462072177224630721782249207221222491072211225110722312296307323222579072407221300714082264407247222194071472))
 (.node 1 (.leaf 2265907248722209071487226850725132268407251222699072527226980725262271707254522716072544227350725632273607256422760072588227610725892287307314023330074141229180731852247007218522927073194229280731952300707337622548072376231370735060000000000023144073513000000000002317307354222714072542232070735762320607357523345074156233460741572348207439323481074392234930744042349207440323622074533236210745322381707516723816075166238350751852383607518623855075209238540752082396507541423966075415239730754222443107642124077075526240780755272410007554924099075548241720756212417107562024184075633237230746342439507638524394076384244010763912440007639024448076438248960774382450807649824507076497245970765872459807658824622076612246230766132469407713424695077135247410771812474207718224770077210247690772092483007737224381076371248610774032441307640324886077428248850774272490107744325342078443249340774762493307747524990077532245410765312501007755225009077551251270781242556907912425157078154251580781552518807818525189078186252000781972475807719825201078198247580771982524307824025685079240253670784682492507746725447078548254460785472547607857725475078576255210786222595507962125562079117255610791162558107913626014080136256170791722561607917125650079205256490792042578007944626207080446259100795762633608057526101080223265280812232626408050325836079502263270805662676508156726346080585259200795862635208059125925079591)
 (.leaf 2656008136226559081361266840814862668308148526759081561267600815622679508159726794081596268660821272643108112626880082141268810821422691108217226910082171269540822152738408321627019082385270200823862704808241427479083415270710824372707208243827100082466270990824652713408250027564083500271770825432760708354327200082566272010825672729508312727294083126273260831582689708215827439083375270090823752767308360927672083608277980842002822508520127858084364278570843632789608440227895084401279160844222833608542328026084532280250845312804508455128044084550280640845702806308456928088084594280890845952816108513727735084137283540854412835308544028382085469287960864682849408558128076084582286580862142907308721428843086515288420865142886408653628863086535290030871442900408714529008087149285930861492902408716528610086166290840872252948808822629138087393291390873942914708740229146087401291610874162956308841629201087468292000874672943308817129831089172296630885322966208853129757088626297580886272978608912729389088127298030891442940608814429912089369303100903692992408938129925089382299360893942993708939529977089439303700904382998808945029989089451299970894672999608946630062089532300610895313013708960730138089608302150901563021609015730384090452303850904533049309056700000000000306170911633100509216430692091359302990903583073809140831127092409307960914873079509148630914091605312970926063092109161230538090612))))
 (.node 4 (.node 2 (.node 1 (.leaf 3121309252231212092521313470931253096609212531400093178317740941773152309345231150092452315730935093157209350831665093601316660936023173009413331729094132317560941593175709416032109095150321100951513232609553332327095534324230961110000000000032476096164328250971653252609621432875097215325380963473288609734732623096476326220964753279409713400000000000328990973603290009736133018097508330170975073302809751833029097519331050975953346609859533176098153331770981543319809817533199098176332880984120000000000033295098420329410974213332609845133327098452334820986113348109861033526099141335250991403354609916133547099162335640991793391810017933591099206339461002073371909949133718099490337760995483377509954733786099558337870995593381909959134170100592338611001220000000000033937100198342831011973395910034833958100347341071005293410810053034202101116345401021163427010118434608102184344041014833440310148234445101524341031005253455710213300000000000345871021633458810216434642102347346411023463469410242834355101427347051024393470410243834717102451347181024523478410252834450101529349071031543490810315535082103498354111044973508610350235085103501351151035313478810253235174103590351751035913530310434735632105347353831044693571410546835427104513350981035143557610516035916106161357091054573605810645735765105519354341045203608510648535730105484361511065513615010655036190106590361911065913629110718535939106184)
 (.leaf 3637110744636689108446364901075653649110756636507107582368251085823658310815536584108156366431083613631810736036715108472370511094723709110951237090109511372311101463755711114637262110177375881111773727311018837598111187373771104713737811047237455110549377731115503757211116137573111162375771111663788711216637686111463000000000003770711148437706111483377241115013772511150237799111576378001115773781811159537819111596379811124443798211244538098112561380991125623817011313638169113135381851131513849411415138195113161381961131623823511320100000000000383661135173836511351638618114447000000000003862711445638948115456386401144690000000000038661114490389821154903867911450838999115507387501145793875111458038762114591387631145923884511518738844115186389751154833929311648338997115505389961155043913411616039451117161391501161763946611717639205116373388911153733920911637739208116376392671164573959911745739326116516393251165153936911655939702117560393811165713971411757239517117369392021163703951911737139203116371395381173900000000000039633117491396321174903969111754939692117550398101181904014711918939928118451399291184523995311847640292119476399821185053998111850440031118554403711195554004111856440380119564401281191704046612017040468120172000000000004049312034540810121344405041203564082312135740510120362408271213614058812044000000000000407721211504077312115140817121351000000000004086712140140549120401))
 (.node 1 (.leaf 4091212144640594120446409921215304099312153141194122414408801214144128212250641281122505413931231404171012414041581123486000000000004167512358041356122580417991243864180012438741902124495422041254954192212451542224125515419241245174192512451841982124575419831245764199712459041686123591420501253330000000000042062125345423641263444209012537341786124373422311255224253412652342294125585419931245864247312645642170125456426711273544296512835442679127362426781273614270012738342404126384427061273890000000000042725127408424281264084276212744842465126448428361275324313212853242923128154000000000004294112833000000000000430291284184332612941843041128433000000000004309112849143384129491431131285134281812751443119128519431201285204344312955043718130549434471295544372313055443594130397433061293984360013040343311129403436711305024395313150243696130527436971305284373913057043740130571438701313954387113139643926131454439271314554410113234400000000000441191323624411813236144162132405441611324044427713254144557133541443781333394437913334044417133378446991343784453213351644815134516446611343404437913334044672134351000000000004474713442644464133425447751344584449213345844866134567451531355684487513457644876134577449141351640000000000044970135363449691353624502413541744738134417454051365360000000000045434136567457071375684561413744745880138448456551375084565413750745674137527459361385274567713753045939138530)
 (.leaf 4572913815345463137152457631383284601613932846061139373463141403724629414035246538141353464001404644614913946546646141468464051404694666814151946919142519467651423304676414232946791142356470481433564682014238547077143385469151425154691614251646965143157467181421564698314317546734142175470621433700000000000047080143388470811433894710314341147341144411471271434354712814343647141143454468841424554723614417446982143174475141453604773714636047536145382475371453834755014539647773146396476431455530000000000047787146410475651454114784914651347850146514479611473664817414836648013147418477961464194808314755948295148560481901483824839914938348240148432480271474324826014845548261148456482781485154827914851648411149395482041483964850614957048507149571488541514354885315143448888151520000000000004897715236849168153368489801523714917115337149130153330489391523304913815333848947152338493271543444914515334549329154346493301543474936415438149365154382493801543974919715339749569155403497481564024967415632800000000000498161565695000315757049882157354500781583545008315835950082158358501641584404996915744150191158516501921585175033915941550340159416503601594365055616043550492160371506941613715051316039250512160391505231604025072416140150534160413505351604145070716138450505160384509451624165094616241750986162457511871634585104216322251043163223510891633605128316436051124163395509241623955114816341950948162419)))
 (.node 2 (.node 1 (.leaf 5118116345251182163453512751643525146616535251349164426511551634265143316522951244164230514381652345124816423451620166223516211662245163816624151639166242516551663495183916734951790167208516051662085180216722051803167221518361673465202816834651855167365000000000005192116743152107168431519341674445193516744551978168210517921672105201916825100000000000521181684425230216944252125168449523091694495219516924252010168242521981692455201316824552263169403524411704035240017034452571171344524451704075244417040652583171383525821713825264117144152802172442527051722265270417222552773172413527721724125287617323853032174238530121742185301317421953016174222528601732225306617439253229175392532251753885322617538953303175582000000000005341617641453415176413535081772205368917822153514177226536941782265356917739953568177398535811774115376017841053590177420535911774215361217744253793178443537891784395397317943953792178442537931784435404318021354220181214540491802195422518121954100180384540991803835411818040254117180401541751805795417418057854189180593543681815945426018125454261181255544431822475463818324854450182254546441832545451218242354513182424545281824395452918244054600183210548061842115460318321354809184214546501832605465118326154859184264546541832645494118456900000000000549781846355478518363555162185589553671865895530718640255306186401553441864395534518644055444187224554451872255549018727055273186270)
 (.leaf 5562918820655822189207556411882185564218821955707188284000000000005570918838300000000000558021886465580318864755887189272556951882725593618941856126190418560431902415585618924156049190247558621892475610219039455912189394561051903975591518939756128190420561271904195614619043800000000000562181912305621919123156431192251562391912515648519239956294191400564931924075630119140756497192411563051914115650519241956313191419565691932035638319220356583193217565841932185663719327156638193272566401932745645419227456671193400564871924015667219340156487192401567601942065657319320756892194432570841954335696419521956773194219569841952395698319523857017195272568261942725704519539456854194394570561954055686519440557119195642571201956435717819623856983195238572581964135706419541357562198222575631982235757619823657385197236579692003925780719939258078201244580772012435813820140457981200404582032022135804720121358218202228580622012285823820224858082201248583242024355832520243658394203252582432022535846020342058459203419585122042115835320321158523204222585242042235856420426358404203262586362044365847620343658694205232585322042315874420528200000000000587862054245894420642358791205429589502064295884720622558688205226588582062365885720623558926206405589272064065908820740459089207405591232074395896120644059138207621589702066205921320825659041207256592152082585904320725859441209412596112104115965821061600000000000))
 (.node 1 (.leaf 5966221062059661210619596752106430000000000059942212280597582112815995821239560151213395599672124046016021340460079213222602702142226014621339060145213389601542133986034621439960246213642000000000006031821427060127213270604722152376028521423760479215244606692162446048021524560669216244607742166086058621560760856217245610312182456087221726160871217260609002173920000000000060907217399607222163996101821823260844217233611482186256097421762561247219280000000000006126721940461447220404613142196076131321960661322219615613212196146132821962161144218621613492196426116421864161413220265614122202646149122059800000000000615802212426158122124361742221654615472206546176722223261768222233617772222426177822224361795222260617942222596181422238700000000000618522224256204722342661914222634619152226356197222324261973223243620052232756200622327662053223447618592224476206922359461873222593622192244056222022440662373225256623722252556241322540862222224408624512255916226122459062480225620624792256196260722641462608226415627062266596288522765962725227233627262272346280022742762977228427628392276136265922661262972228422629732284236300922860662832227606630452286426322222964163091229240632712302416312822940063306230400631722295916334623059163227229646634002306456330423039863478231399634362312326360323223263443231239636112322406345723125363456231252635512316296355223163063557231635637202326356365023240563649232404)
 (.leaf 6372123263663883233636638022333956396523439563820233413639822344126388023363364042234633639492342526394823425164000234591639992345906404323463464206235634640662346576422923565764101235240642632362406418423561264345236612642642362416442523724164379236646645372376466441723723364576238233645092376186466423861864542237651646972386516461323840264612238401646392385936463823859264649238603646502386046465123860564803239606646612386156466023861464669238623646702386246472723922964728239230648542396576485323965664905240257650542412576496724062164968240622649942406486514324164865074241411650732414106517024222465317243224653782435936537724359265460244224654612442256555324463565676245635657352462456573424624465807246651659182476506601224864566092249645661312502346613225023566171250654661012496546620425123666205251237662092512416621025124266229251648661642506476643925522466502256224666422592216660525822266937267225669382672266702327022367024270224671012732206710227322167229279221672302792226725028022067251280221282040851802777908418130640091186302450901860005701329800058013299002710152900027201529100347016220003480162210051801721900519017220005510172520037801625200562017263003890162630056401726500391016265005650172660039201626600606017307006070173080075701826700566017267007580182680056701726800760018270005690172700078201829200591017292008010183110000000000000954019246009530192450097901927100761018271)))))
 (.node 8 (.node 4 (.node 2 (.node 1 (.leaf 140902127201196020272014100212730119702027301411021274011980202740163102226901406021269016590222970143502129801668022306016690223070185302327501637022275018540232760163802227602011024229020100242280205902427701855023277020600242780185602327802061024279018570232790206202428001858023280020630242810185902328102066024284018620232840207202429001868023290020960243140209702431502261025294020760242940248202631202483026313027510275640275002756303205029554032060295550332803025103534031250034550305700345403056903550031266035490312650375103224903750032248037590322570400703325603765032263037640322620380503230303806032304038810325690388203257004013033262040120332610411903354904120033550041590335890415803358804416034563044170345640472603558104725035580049220362920492303629304995036535049960365360503803657804724035579050650366050506603660605135037130051340371290533903754505338037544053460375520534503755105427037636000000000000543903764805098036649055460381990554703820005730038561053540375600573803856905737038568058200386510582103865205999039267064450402660606603941506067039416061060395230569303852406133039550061320395490620803962505795038626066280405820662904058306653040607066540406080672404067806262039679069520412690695104126806975041292075010422920702404141906522040420070960415370709504153607226041667072270416680730004204806775041049073630421110736204211007484042275074830422740755504242507031041426)
 (.leaf 775304264607754042647078120427050781104270407846043040078450430390791204310607911043105080240432670747504226608199043535081980435340821104354708210043546082870436230828804362408329043665083300436660844504408108444044080085950442620859404426108609044276091850452770861604428309191045283087510445160000000000008793044558093660455590880304456808233043569088140445790824304357908831044596088320445970884204460708271043607088610446260886204462708867044632088660446310887804464308879044644089280446930892704469208978045042089770450410910504516900000000000091690452610974404626109221045405092220454060925704544109258045442093870455800938804558109414045607094130456060947204566509473045666097150462180971404621709870046483104750474821001904663309440045633100740466881007304668710153047052101520470511016704706610166047065102160471151021704711610220047119102190471181039404740110395047402103980474051100804840610406047413104050474121053104753810530047537105910475981059204759910653047660106540476611069904770611299048706107970480881079804808911004048402115890494031109804850511097048504111250485321112604853311183048590117670495911127504868211274048681114240491221142504912311433049131108400481311154404927800000000000116070494261160804942711692049516111090485161173104955511732049556117370495611173804956211751049575117520495761183804966211255048662120200501431202105014412164050401121650504021217005041212169050411))
 (.node 1 (.leaf 1218605042812187050429122030504471220205044612212050456122110504551231005055412880051554123390505831234005058412364050608123650506091242505066912424050668124380506821243705068112453050697124540506981255405110712555051108125910511441315405214512675051262126740512611272805139813285052399129700516441297105164513080052071130790520701310005209113099052090131600521511259905115213279052393138250533941332105243713320052436133680524841391405348513377052493133760524921340805252412849051523135160526321406205363313578052694135790526951359305270913594052710136570530791365805308013706053128142450541271390005347113901053472139670535381449905453813987053558139860535571420905409114208054090143580543931435905439414700055047152400560471490305539400000000000150840555801508505558115252056059157730570581528305609015282056089153020561091582405710915333056140153320561391534605615314807055154153500561571481005515715450056419154490564181549605646515495056464155920565611559105656015688056657156890566581578505707016285058070159440573921594505739315975057431159740574301606505752116064057520161330575891613405759016377058162163780581631638305816816384058169163850581701638605817116465058413169630594131655605850716050057506166800586311667905863016893059206168920592051694405939316945059394170170594701701805947117086059539170870595401710905956217108059561171840596371765306063717301060105173020601061731106011517310060114)
 (.leaf 1738106021817382060219174070603821784706138117459060443174600604441750206048617947061486175090604931751006049417516060500175150604991753906052317538060522175920605761712305957617609060593176100605941762906061317630060614177060610451770506104417707061046181490620451775006111217308060112177630611251732106012517783061145177820611441797706151617978061517180710616101807206161118241062166182420621671829906238518720063384183220624151787706141618366062459183650624581844206253518441062534185040625971805906159818652063157190600641561868406321718685063218187500634221832906242218801063473188000634721881506348719223064488189610636331896006363219001064097190000640961910206422818695063228194440651291903306412919606065450200240664501970806555219707065551197320655761931106457620006066432200070664332013206655819713065557201940666201977706562120258067114202590671152043306744520434067446204770674892047806749020559067571205600675722063606768220637067683207310681732031806717420751068207207500682062087806847321305069473209190685142091806851320945068540209440685392100706860221008068603211430691752073306817521171069210211700692092118306922220767068223212490694172082206841721364069532213630695312149807010321939071102215260701312110006913221709070436217100704372172607045321284069452217870705142178607051321971071134219720711352197907114221980071143221300714082168107040822194071472217450704722220907148722210071488)))
 (.node 2 (.node 1 (.leaf 2233707161522786072614223990721142284707311422463072178220150711782247007218522022071185224910722112249007221022548072376000000000002259207242023051073420226840725122268307251122698072526231570735262271607254422715072543227360725642228607156422761072589223120715902292807319500000000000229630732322296407323323330074141233310741422334607415723347074158234810743922348007439123492074403234910744022362107453223620074531237230746342372407463523816075166238150751652383607518623837075187238540752082385307520723966075415239670754162409907554824558076548241710756202417007561924381076371243800763702439407638424393076383244000763902439907638924413076403244120764022450707649724506076496245410765312408207553124598076588245990765892469507713525139078136247420771822429107618324758077198000000000002476907720924768077208248850774272488407742624896077438253380784392492507746724476076466249330774752493207747425009077551245600765502515807815525159078156251890781862474707718725342078443257770794432544607854725880079546254750785762547407857525569079124260010801232561607917125615079170256490792042520707820425685079240000000000002583607950225401078502259200795862592107958725925079591000000000002595507962125954079620260140801362601508013726207080446262060804452633608057525908079574264310811262600408012626528081223000000000002655908136126121080360266830814852711808248426760081562267610815632679408159626356080595)
 (.leaf 2688108214227311083143268970821582646308115826910082171269090821702700908237527010082376270200823862702108238727072082438270730824392709908246527098082464272010825672720208256827294083126272930831252738408321627385083217274790834152748008341627564083500275630834992760708354328038084544276720836082810208460827735084137277360841382777908418127780084182278570843632785608436227895084401283130854002802508453128024084530280440845502804308454928063084569276320835682807608458228077084583280890845952765908359528225085201286450862012833608542328756086423286100861662819008516628796086468287950864672884208651428841086513288630865352844708553429139087394295410883942914608740129145087400292000874672919908746629389088127293880881262940608814429004087145294880882262948908822729563088416299580894162975808862729360087627298310891722983208917329925089382303240903832993708939529938089396299890894512999008945229996089466299950894653006108953130060089530301380896083013908960930216090157302170901583029909035829901089358303100903693070209136930370090438303690904373053809061230537090611307950914863079409148530966092125309670921263100509216431386093164311500924523115109245331212092521312110925203157209350831198092507316660936023166709360331729094132317280941313175709416031758094161321100951513246409615232327095534326810965343262209647532621096474328750972150000000000032886097347328850973463290009736133258098361))
 (.node 1 (.leaf 3294109742100000000000330170975073265409650733029097519330300975203317709815432815097155331990981763356209917733327098452333280984533346609859533467098596334810986103383509960933525099140338791001403354709916233902100163337180994903371709948933775099547337740995463378709955933430098559339181001793426510117933946100207342931012073395810034733957100346341031005253375409952634170100592345131015923428310119734282101196343551014273435410142634403101482344021014813445010152934108100530345401021163486910311634588102164345891021653460810218434937103184346411023463464010234534704102438347031024373471810245234381101453347881025323478910253334908103155352421041563508510350135084103500350981035143477010251435175103591351761035923541110449735742105496354341045203510510352135632105347359691063473571410546835713105467357301054843539710448335916106161362681071623593910618435599105183360581064573605910645836150106550357961055503619110659135837105591363181073600000000000036584108156365851081573668910844637025109446368251085823682410858137051109472373781104723755711114637867112146375731111623757411116337598111187372711101863770611148337388110482377251115023772611150337773111550377741115513780011157737801111578378191115963813311259638099112562381001125633816911313538168113134381961131623850611416338365113516380521125153849411415138809115151387511145803875211458138763114592387641145933884411518638843115185)
 (.leaf 3889111537338578114373389481154563926611645638982115490389811154893899611550439314116504389991155073899811550639202116370388881153703920311637138889115371392081163763920711637539293116483396241174823932511651539656117514394511171613945211716239599117457399331184563963211749039631117489396921175504002811855139702117560400371185603971411757240049118572399811185043998011850340147119189404781201894029211947640293119477403711195554070212055640380119564407101205644046612017000000000000405491204014021711940140594120446402611194454081012134440809121343408231213574113812235840827121361408261213604088012141440562120414409931215314099412153241281122505412801225044135612258041357122581416861235914136712259141710124140417091241394178612437341785124372418001243874180112438841925124518422281255194198312457641671123576419931245864199212458542170125456421711254574220412549542506126495422241255154222512551642364126344426601273434240412638442405126385424281264084212612540942465126448421631254494253412652342535126524428181275144252612651542965128354432621293544313212853243133128533433261294180000000000043384129491000000000004369713052843422129529437181305494400013154943723130554440051315544374013057143741130572438711313964359313039643927131455439281314564395313150243952131501441181323614383613136144161132404438791314044437913334044097132340444921334580000000000044557133541448401345414469913437844986135379))))
 (.node 4 (.node 2 (.node 1 (.leaf 4473813441744739134418448151345164481413451544876134577448771345784496913536244968135361451531355684543613656945463137152454621371514565413750745653137506457071375684570813756945880138448458811384494593613852745937138528459391385304594013853146016139328462691403274614913946546150139466463141403724655714137246405140469464061404704653814135346789142354467181421564696414315646734142175000000000004676414232946763142328468841424554688514245646916142516469171425174698214317446733142174470481433564704714335547077143385473151443854708114338947319144389471281434360000000000047341144411473421444124756514541147566145412477371463604795514736047796146419477971464204785014651448063147514480271474324780914643248174148366483821493664820414839647992147397482611484564826214845748279148516480651475164829514856048496149560483991493834840014938448853151434488521514334893915233048938152329489471523384894615233749145153345491461533464916815336849350154367491711533714917015337049197153397491961533964933015434749148153348493651543824936615438349748156402499291574014996915744149787156441500781583545027815935450082158358502821593585019215851750193158518503401594165053816041750505160384505041603835051216039150315159391505351604145053616041550556160435503581594345069416137150900162371507241614015072316140050924162395507191613965094616241750947162418509481624195074216141951043163223510441632245115516342650954162425)
 (.leaf 5118216345351377164454511871634585118816345951248164234510541632345146616535251658166352516051662085141216520851621166224516221662255179216721051608166211518031672215180416722251839167349520321683505193516744552122168446520101682425182416724252013168245518271672455202816834652215169347521071684315229116943152302169442524811704435244117040352604171404524441704065244317040552571171344000000000005258217138252581171381527041722255253717122452772172412527711724115280217244252803172443528601732225286117322353013174219528571732195303217423853194175238532261753895322717539053229175392533941763925341517641353414176412535681773985374717839753591177421534231764215368917822153871179222536941782265369317822553793178443539781794445397317943953974179440540991803835409818038254117180401541161804005417418057800000000000542201812145422118121554225181219544161822205426118125554452182256543681815945436918159554529182440547231834405465418326454459182263547851836350000000000054806184211548071842125480918421454810184215552731862705506418527055306186401553051864005534518644000000000000553671865890000000000055445187225552281862255564218821955643188220556951882725569418827155803188647558041886485585618924155664188241559121893945572018839455915189397557221883965612719041956126190418562391912515605319025156294191400561081904005630119140756115190407563051914115611919041156383192203563821922025657319320756388192208))
 (.node 1 (.leaf 5658419321856585193219566381932725663919327356773194219567741942205682619427256639193273568541943945685319439356865194405566761934055698319523856792194238570641954135687419441457084195433570851954345712019564357329196644573851972365738419723557563198223573731972245780719939257806199391579812004045781819940358047201213580462012125807720124357918200243580822012485792320024858243202253580872012535832520243658326202437583532032115820120221158404203262582522022625845920341958619204419584762034365832620243758524204223583662032245868820522658527204226588572062355885620623458927206406590902074065894420642358943206422589502064295911320742958961206440589622064415897020662000000000000590412072565887920625759043207258588802062585908920740559262208406596112104115979021141259661210619000000000005975821128159759211282601272132706012621326960145213389603362143896015121339560152213396601602134046035221440560270214222604582152236028521423760284214236603462143996053421540060586215607604012146066066921624460855217244607222163996072321640060844217233606592162346087121726060870217259609742176256079121662561144218621611452186226116421864160990217641613132196066131221960561321219614615072206146141222026461411220263614472204046163622140461547220654613612196546176822223361964223234617782222436177922224461794222259615962212586185922244700000000000618732225936187222259261915222635619162226366197322324361974223244)
 (.leaf 6200622327662007223277620472234266185322242662220224406622212244076222222440862221224407622612245906206422358962372225255623712252546247922561962290224619626082264156242122541662659226612626582266116272622723462906228235628322276066265222660562885227659627072266606297322842362797227424629772284276315422942663222229641633952306406327123024163272230242633062304006348023140163346230591633452305906340023064563567231645634562312526345523125163478231399634792314006355223163063553231631636032322326376623323263611232240637752332416364923240463810233403637202326356388223363563883233636640452346366394823425164111235250639652343956412923539563982234412641462354126399923459064161235589640422346336420523563364229235657643902366576426323624064424237240643452366126450223761164537237646646912386456457623823364732239234646122384016445623740164638238592000000000006465023860464802239605646602386146465923861364664238618648152396186467023862464821239624646972386516484823965164728239230000000000006480323960664952240606648532396566500124065564968240622651172416226505424125765203242257650732414106492424041065143241648652892426486531724322465461244225653772435926537624359165676245635000000000006573424624465733246243659182476506591724764966101249654661002496536613225023566133250236661642506476609324964666205251237662062512386621025124266211251243665022562246650325622566605258222665562572236693826722666939267227)))
 (.node 2 (.node 1 (.leaf 6702427022466997269225671022732216710327322267230279222672532802236725128022167252280222218510705782229907157730245090186298460891875451318242454514182425000580132990005901330000272015291002730152920034801622100349016222003780162520000000000000389016263003880162620039101626500392016266005190172200000000000000566017267003930162670056701726800394016268005690172700039601627000591017292004190162930060701730800434016308007610182710057001727100953019245009520192440119602027200980019272011970202730098101927301198020274009820192740140602126901193020269016370222750141202127501638022276014130212760166902230701445021308018550232770163902227701856023278016400222780185702327901641022279018580232800164202228001859023281016430222810186202328401646022284018680232900165302229102010024228020090242270207602429401872023294020970243150209802431602483026313024840263140275002756302749027562032060295550320702955603454030569034530305680353403125003533031249035490312650354803126403750032248000000000000376403226203763032261038060323040380703230503882032570038830325710401203326103762032260041200335500412103355104158033588041570335870441703456404710035565047250355800472403557904923036293049240362940499603653605331037537050660366060506703660705098036649050990366500513403712905133037128053380375440533703754305345037551057190385500535403756005353037559055470382000595803920105693038524000000000000573703856805736038567)
 (.leaf 579503862605416037625058210386520582203865306067039416000000000000613203954905717038548062620396790000000000006445040266069480412650652204042000000000000066290405830663004058406654040608066550406090677504104906776041050069510412680695004126707031041426000000000000709504153606581040535073620421100736104210907483042274074820422730750104229207502042293077540426470775504264807811042704078100427030784504303908403044039079110431050791004310408198043534081970435330821004354608209043545082330435690823404357008243043579082440435800828804362407732042625083300436660833104366708444044080090150450790859404426108593044260088320445970883304459808862044627088630446280887904464408880044645089270446920892604469108977045041089760450400918504527709761046278091910452830976604628309222045406092230454070925804544200000000000093660455590936704556009388045581088160445810944004563309439045632097140462170971304621609744046261097430462601007304668710072046686101520470511076004805110217047116102180471171039504740211005048403104050474120980204641110475047482104740474811053004753711130048537105920475991119204859910798048089107990480901084004813110232047131110080484060000000000011097048504104960475031110904851610509047516111260485331112704853411274048681106730476801129904870611882049706114250491231142604912411589049403000000000001160804942711609049428117320495561173304955711738049562123190505631175204957611753049577))
 (.node 1 (.leaf 1202105014411447049145121650504020000000000012169050411121680504101218705042900000000000122020504461277205144612211050455122100504541234005058412341050585124370506811185704968112454050698124550506991255505110812556051109125990511521260005115312674051261126730512601284905152312278050522128800515541288105155512971051645124020506461307905207012517051070130990520901309805208913154052145137220531441328505239913286052400133200524360000000000013376052492133750524911357905269514124053695135940527101359505271113825053394138260533951390105347213357052473139140534851391505348613986053557134400525561406205363314061053632142080540901420705408914245054127142460541281435905439400000000000144990545381504105553714807055154142720541541481005515714811055158150850555811508605558215240056047152390560461528205608914741055088153320561391585405713915449056418154480564171549505646415494056463155910565601559005655915689056658156900566591577305705800000000000158240571091582505711015945057393159460573941597405743015973057429160640575201606305751916134057590161350575911628505807016790059070163780581631688405916416384058169168900591701638605817100000000000168920592051689105920416945059394164530583951696305941300000000000170180594711701905947217108059561171070595601712305957617122059575173020601061774506110717310060114168330591131732106012516846059126173820602191738306022017460060444174610604451751006049417511060495)
 (.leaf 1753806052217537060521176300606141763106061517653060637176520606361770506104418147062043177820611441778106114317847061381000000000001787706141600000000000179470614861794806148717978061517179790615181805906159817614060598180720616111851906261218149062045000000000001824206216718243062168183290624221833006242318365062458187850634571844106253418440062533186850632181826606221918695063228182720622271872006338419127064384189600636321936706463219000064096194110650961903306412918624063129190600641561905906415519223064488196450654891970706555119285064550197130655571971206555619777065621193560646212000706643320008066434200240664502002506645120259067115202600671162047806749020479067491205600675722014506657120637067683206380676842073306817520319067175207500682060000000000020767068223207660682222082206841720821068416209180685132091706851220944068539209430685382100806860320591067603211000691322152807013321170069209211690692082128406945220857068452213050694732130406947221363069531209360685312168107040821680070407217100704372126906943721786070513000000000002193907110221938071101219720711352242107213621980071143219810711442201507117822016071179220220711852158007018522210071488222110714892228607156421836070563222990715772274807257622312071590223130715912249007221022489072209226830725110000000000022786072614232440736132284707311423304074115229640732332296507323423051073420235090744202333107414223332074143)))))))
 (.node 32 (.node 16 (.node 8 (.node 4 (.node 2 (.node 1 (.leaf 2334707415823348074159234800743912347907439023491074402239520754012362007453124081075530237240746352372507463623837075187233770741882385307520723852075206239670754162396807541724082075531240810755302417007561924628076618242910761832474407718424380076370243790763692439307638323934075383243990763892394007538924412076402239530754022450607649624505076495245600765502455907654924599076589246000765902474707718724296076188247680772082476707720724884077426248830774252493207747424931077473251390781362514007813725159078156256020791572520707820425206078203253380784392577407944025401078502254000785012547407857525473078574257770794432577807944425880079546258790795452590807957425907079573259210795872548707858825954079620263800806192600108012326429081124260040801262643008112526015080137260160801382612108036000000000000263560805952635708059626463081158264640811592676108156326762081564269090821702647508117027010082376265740813762702108238727451083387270730824392750408344027098082464000000000002711808248427548083484272020825682720308256927293083125268640821252731108314327312083144273850832172738608321827480083416279110844172756308349927562083498276320835682720308256927659083595272290825952773608413827737084139277800841822778108418327856084362282740853612802408453028023084529280380845442760808354428043084549280420845482807708458328078084584281020846082852008560728190085166277640841662831308540028733086400)
 (.leaf 2844708553400000000000286450862012906108720228756086423000000000002879508646728794086466288410865132884008651229004087145290050871462919908746600000000000293600876272895508662729489088227298860892272954108839429542088395298320891733023209017329846089187294500881882990108935800000000000299380893962993908939729990089452303850904532999508946500000000000300600895302966208853130324090383303250903843036909043729974089436305370906113053609061030702091369310910923693079409148530793091484311510924533115209245431198092507308150915063121109252031210092519313860931643176209416531667093603312950926043172809413131727094130317580941613175909416232464096152324650961533262109647400000000000326540965073265309650632681096534326800965333288509734632884097345330300975203339109852033258098361000000000003332809845333329098454334300985593343109856033467098596338240995963371709948934067100489337540995263375509952733774099546337730995453383509960933834099608338791001403422510113933902100163339031001643395710034633956100345341081005303410910053134282101196346191021953429310120700000000000343541014263401010042634381101453343821014543440210148134401101480345131015923451410159334589102165342521011663464010234534969103345347031024373470210243634770102514347711025153478910253334455101534348691031160000000000034937103184352691041833508410350035414104500351051035213477710252135176103592348491025933524210415635243104157))
 (.node 1 (.leaf 3539710448335066103482357131054670000000000035796105550357951055493583710559135838105592359691063470000000000036059106458357111054593626810716236269107163365851081573658610815837025109446373531104473727111018637270110185373781104720000000000037388110482370611094823757411116337885112164377261115033772711150437774111551380891125523780111157837484110578378671121463786611214538052112515377371115143810011256338413113564381331125963813411259738168113134381671131333850611416338822115164385781143733826811337338752114581387531145823876411459338765114594388091151513912611615238843115185391591161853888811537038576114371388891153713857611437138981115489392991164893899811550639315116505392071163753889311537539266116456392651164553931411650439646117504394521171623978311816339631117489396301174883965611751439655117513399331184564027211945640028118551400291185524003711856040377119561400491185724038811957240261119445399231184464029311947700000000000404781201890000000000040562120414000000000004070212055641019121557407101205644102612156440809121343411231223434082612136041139122359409941215324099512153341138122358414571233584128012250441279122503413571225814135812258241367122591413681225924167112357641352122576417091241394170812413841785124372000000000004180112438841802124389419921245854168012358542126125409418221244094216312544941862124450421711254574217212545842225125516425281265174222812551942531126520)
 (.leaf 4240512638542103125386425261265154252712651642535126524425361265254266012734342953128342431331285334342712953443262129354435511303544342212952943129128529435931303964330512939743741130572434651295724383613136143558130361438791314044360113040443928131456439291314574395213150143951131500440001315494428513254944005131554440041315534473913441844458133419448141345154481313451444877134578448781345794496813536144967135360449861353794527013637945436136569457091375704546213715145184136150456531375064565213750545708137569459691385704588113844946134139450459371385284593813852945940138531459411385324615013946600000000000462691403270000000000046406140470000000000004655714137246807142372467331421740000000000046763142328467621423274678914235447046143354468851424564663514145746917142517469181425184696414315646963143155470471433554728414435447315144385475381453844731914438947320144390473421444124734314441347566145412475671454134779714642047574145420478091464320000000000047992147397479911473964806314751448064147515482621484574804714745848382149366485871503664849614956048698150560488521514334885115143248938152329491281533284894615233748756151337491461533464914715334749148153348491491533494917015337049169153369491961533964937815439549350154367495331553674936615438349367154384497871564414978815644249929157401499281574005019315851850194158519502781593545047516035450282159358504791603585031515939150314159390)))
 (.node 2 (.node 1 (.leaf 5035815943450357159433505041603835070516138250536160415505371604165053816041750539160418507231614005072216139950947162418507411614185095416242550747161424510441632245123916422551188163459000000000005137716445451568165454514121652085122316420951608166211516091662125165816635251842167352518041672225180516722351824167242516391662425182716724500000000000520321683505221816935052122168446521231684475221516934752403170347522911694315229216943252443170405526051714055248117044352643171443525811713815274017238052771172411527701724105280317244352644171444528571732195269917222052861173223528621732245319417523853357176237532271753905339217639053414176412534131764115342317642153424176422536931782255387417922553747178397537461783965387117922253872179223539741794405397517944154098180382540971803815411618040054115180399542211812155422218121654369181595000000000005445918226300000000000547231834405492918444054807184212550071852135481018421554811184216550641852700000000000055228186225550201852265530518640055304186399556641882415546218724255694188271554911872715572018839455518187394557221883965551918739555804188648556151876485605319025155866189251561081904005591818940056115190407559251894075611919041156118190410561261904185631319141956382192202561901912025638819220856195191207565851932195658619322056639193273564541922745667619340556675193404567741942205658619322056792194238566051932395685319439356664193393)
 (.leaf 5687419441456685193414570851954345708619543557329196644573301966455737319722457374197225573841972355717419623457806199391578051993905781819940357647198403579182002435775519924357923200248577601992485808720125357928200253582012022115820220221258252202262580972012635832620243758327202438583662032245836720322558527204226583682032265861920441958618204418588562062345869620523458879206257587192052575888020625858720205258589432064225910620742258962206441000000000005909020740659262208406591132074295928620843059759211282000000000005979021141259791211413601262132695993121226960152213396603432143966028421423660092213235603362143896033521438860352214405603532144066040121460600000000000604582152236045921522460659216234604692152346072321640060535215401608552172446103121824560870217259610442182586099021764160807216641611452186226114621862361312219605613112196046136121965461362219655614112202636141022026261507220614000000000006159622125861595221257616362214046163722140561853222426618542224276187222259261680221592619162226366211122363661964223234621582242346200722327700000000000620642235890000000000062221224407620282234076229022461962289224618623712252546237022525362421225416622312244176265222660500000000000626582266116247022561062707226660627082266616279722742462975228425629062282356290722823663272230242634472312436334523059063170229589633952306406356223164063455231251634542312506347923140063645232400))
 (.node 1 (.leaf 6348023140163646232401635532316316371723263263567231645635662316446376623323263929234232637752332416393923424263810233403638092334026388223363564044234635640452346366420823563664111235250641102352496412923539564289236394641462354126414523541164161235589641602355886439023665764389236656644242372406458323824064502237611646572386116465923861364658238612646912386456484123964464732239234648822402346480223960564952240606648152396186496424061864821239624648222396256484823965164847239650649242404106492324040965001240655650002406546511724162265263242622652032422576520224225665376243591000000000006546124422565593245225659172476496601624864966100249653660992496526613325023666134250237662062512380000000000066211251243662122512446650325622566504256226665562572236655725722466997269225669982692266710327322267104273223672522802220000000000067253280223000000000005451418242554322181426000590133000006001330100273015292002740152930034901622200350016223003880162620038701626100392016266003930162670039601627000000000000004190162930042001629400434016308000000000000057001727100397016271009520192440095101924300980019272007620182720098101927300763018273009820192740076401827401193020269009770192690141202127501199020275014130212760120002027601639022277014140212770164002227801415021278016410222790141602127901642022280014170212800164302228101418021281016460222840142102128401653022291014290212920187202329401873023295)
 (.leaf 200902422700000000000020980243160000000000002484026314024850263150274902756202511026561032070295560320802955703453030568034520305670353303124903532031248035480312640354703126303807032305040570333060388303257103884032572041210335510386303255104157033587000000000000472403557904431034578049240362940492503629505099036650000000000000513303712805132037127053310375370533203753805337037543053360375420535303755905352037558054160376250541503762405717038548057180385490573603856705735038566058220386530582303865405958039201000000000000658104053506118039535066300405840663104058506776041050067770410510694804126507473042264069500412670694904126607361042109073600421080748204227307481042272075020422930750304229407732042625077330426260775504264807756042649078100427030780904270207910043104079090431030819704353308196043532082090435450877904454408234043570076770425700824404358008245043581083310436670777404266708403044039084020440380859304426008592044259088160445810881704458208833044598088340445990886304462808864044629088800446450831004364608926044691089250446900897604504009552046039090150450790901404507809223045407097980464070936704556009368045561094390456320943804563109713046216097120462150974304626009167045259097610462780976204627909766046283103510472830980204641110404047411100720466861007104668510218047117102190471181023204713109643046130104740474811047304748010496047503000000000001050904751609901046515))))
 (.node 4 (.node 2 (.node 1 (.leaf 1067304768010672047679107600480511075904805010799048090108000480911100504840300000000000111270485341052704753411192048599111910485981142604912410833048124114470491451144804914611609049428116100494291173304955712314050558117530495771175404957811857049681118560496801216805041000000000000122100504541220905045312278050522116980495221231905056312318050562123410505851234205058612402050646118220496461245505069912456050700125170510701251605106912556051109125570511101260005115312601051154126730512601267205125912772051446127710514451288105155513439052555130980520891309705208813286052400000000000001335705247313358052474134400525561343905255513595052711130380517121372205314414261054143138260533951436005439513915053486139160534871406105363214060053631141240536951465505469414207054089142060540881424605412814782055129142720541541427305415514741055088147400550871481105515814812055159150860555821454305458215239056046152380560451544805641715447056416154940564631549305646215590056559155890565581569005665915164055660158250571101582605711115854057139163530581381594605739400000000000159730574291647705842816063057519160620575181613505759116641058592164530583950000000000016790059070000000000001684605912616847059127168840591641688505916516891059204000000000001701905947217488060472171070595601710605955917122059575166240585751738306022000000000000174610604451699305944617511060495175120604961753706052117981061520)
 (.leaf 1761406059817615060599176310606151763206061617652060636176510606351774506110717746061108177810611431778006114217948061487183940624871797906151818426062519181470620430000000000018243062168182440621691826606221918267062220182720622270000000000018330062423178840614231844006253318439062532185190626121852006261318785063457187840634561905906415519470065155191270643841912606438319356064621193570646221936706463219366064631194110650961982506609619645065489196460654901971206555619711065555200080664341959106543520025066451200260664522014506657119728065572202600671162026106711720319067175203180671742047906749120066066492205910676032017606660220638067684000000000002076606822220347067221208210684162082006841520857068452204400674522091706851220916068511209360685312093506853020943068538205270675392116906920821168069207212690694372171107043821304069472217450704722152807013321529070134215800701852158107018621680070407212380694062183607056321837070564219380711012193707110021981071144215390701442201607117922017071180222110714892176207048922313071591223140715922242107213622422072137224890722092248807220822748072576232060735752296507323422966073235232440736132324507361423304074115237650751152334807415923349074160233770741882292107318823479074390234780743892350907442023971075420237250746362372607463723852075206238510752052393407538323472074383239400753892347807438923953075402239520754012396807541723969075418))
 (.node 1 (.leaf 2408107553024080075529243790763692437807636824505076495245040764942455907654924558076548246000765902460107659124628076618246270766172474407718424745077185247670772072476607720624883077425248820774242493107747324930077472251400781372514107813825206078203247620772022540007850125399078500254730785742503207757425487078588254880785892560207915726036080158257740794402620208044125778079444262050804442587907954500000000000259070795732547207857326016080138255830791382635708059626358080597263800806192681708161926430081125264290811242646408115926038080160264750811702604808017026574081376261370803762676208156426763081565268640821252686308212427203082569267680815702722908259526793081595273120831442731308314527386083218273870832192745108338727452083388275040834402750508344127548083484275490834852756208349827992084498276080835442760908354527737084139277380841402776408416627333083165279110844172833108541828023084529280220845282804208454827611083547280780845842807908458528274085361282730853602852008560728935086607287330864002914508740028794086466000000000002884008651228839086511289550866272895608662829005087146290060871472906108720229062087203294500881882945108818929542088395295430883962966208853100000000000298860892270000000000029939089397303370903972997408943629973089435302320901733023309017430325090384000000000003038509045300000000000305360906103013908960930793091484304090904833081509150630814091505)
 (.leaf 3109109236931470093369311520924540000000000031210092519312090925183129509260431296092605317270941303172609412931759094162317600941633246509615332466096154326530965063265209650532680096533326790965323288409734532883097344333290984543368709945533391098520337490995213343109856033070097560337550995273375609952833773099545337720995443382409959633825099597338340996083418410060833903100164342511011653395610034533955100344340101004263365909942734067100489340661004883410910053134110100532342251011393456310213934382101454340391004553440110148034057100479344551015343445610153534514101593345151015943461910219534948103195347021024363503010343734771102515344361015153477710252134442101521349691033453496810334435066103482347371024813524310415735244104158354141045003541310449935711105459000000000003579510554900000000000358381055923550610459236269107163365921081643658610815836265107159370611094823672510848237270110185372691101843735311044737670111447374841105783748511057937737111514377361115133786611214538179113145378851121643788611216538089112552380901125533813411259738135112598381671131333847511413238268113373379571123733841311356438101112564385761143713826711337238753114582390751155833876511459438766114595388221151643913911616538893115375385801143753912611615239443117153391591161853947411718439265116455395961174543929911648939298116488393151165053964611750439655117513396541175123978311816340122119164)))
 (.node 2 (.node 1 (.leaf 3992311844639589117447400291185524036911955340377119561403781195624038811957240718120572409951215334099612153441019121557413331225574102612156441027121565411231223434112212234241139122359000000000004127912250341278122502413521225764103812157641358122582413591225834136812259241054121592414571233584177212435941680123585413611225854170812413800000000000418021243894180312439041822124409418231244104186212445041550123451421031253864210412538742172125458000000000004252712651642528126517425311265204282512752142536126525428301275264295312834243249129341433051293974330612939843465129572434661295734355113035400000000000435581303614326912936143601130404433121294044392913145743930131458439511315004395013149944004131553440031315524428513254944284132548444581334194445913342044813134514448121345134487813457944595133579449671353600000000000045184136150451831361494527013637945550137380456521375050000000000045938138529461871395304594113853245942138533459691385704570913757046134139450461351394514663514145746636141458467621423270000000000046807142372470641433724691814251846919142519469631431554721714415547046143354472841443544732014439047544145390473431444134734414441447538145384477611463844756714541347344144414475741454204735114442147991147396477731463964804714745848048147459480641475154806514751648587150366487851513664869815056048893151560487561513374855815033748851151432488501514314912815332849127153327)
 (.leaf 4914715334748956152347491491533494915015335049169153369493521543694936715438449184153384493781543954937715439449533155367497131563674978815644249789156443499281574005012415840050194158519000000000005031415939050114158390503571594335035615943250475160354506771613545047916035850478160357505371604165074016141750539160418507421614195070516138250910162381507221613995092716239850747161424507461614235122316420951030163210512391642255124016422651568165454517601664545160916621251416165212516391662420000000000051805167223518061672245184216735252034168352521231684475212416844852218169350000000000005229216943252470170432524031703470000000000052605171405526041714045264317144352644171444526991722205270017222152740172380527391723795277017241052929173410528621732245270317222453357176237535251772375339217639053393176391534131764115341217641053424176422532591754225387217922353873179224539751794415397617944254097180381540961803805411518039954114180398542221812165441318221754811184216548121842175492918444055137185441550071852135521618621355304186399553031863985546218724255463187243554911872715527418627155519187395552991863945561518764800000000000558661892515567518825255918189400557261884005592518940755924189406561181904105592718940956190191202560041902025619519120756010190208563131914195631219141856454192274562611912735658619322056587193221566051932395641919223956664193393564791923935667519340456490192404))
 (.node 1 (.leaf 5708619543557087195436573301966455733119664657374197225571651962255764719840357456197403577551992435758219824257760199248577591992475780519939057804199389579282002535776619925458097201263579382002635820220221258046201212583272024385817320143958367203225582162022265836820322658217202227586182044185861720441758696205234586952052335871920525758558204257587202052585855920425859106207422592772084215926220840659435209406592862084305945920943059791211413597922114145993121226959747211270600922132355989621223460335214388603342143876034321439660531215397603532144066054021540660459215224604602152256046921523460282214234608072166416062021564161031218245612122192456104421825861224219257611462186236114721862461311219604613102196036136221965500000000000614102202626140922026161595221257615942212566163722140561449220406616802215920000000000061854222427618552224286202822340761834222407621112236366230822463762158224234623522252356223122441762232224418622892246186228822461762470225610624692256096270822666100000000000629072282366308822923763170229589631692295886344723124363448231244635622316406356123163963566231644637292326446364523240063646232401637172326326387923363263809233402638082334016392923423264093235232640442346356420723563564110235249642722362496414523541164144235410641602355880000000000064389236656645472376566465823861264657238611648222396256482323962664841239644000000000006484723965064996240650)
 (.leaf 6488224023465032241235649232404096477323940964952240606651012416066496424061864965240619650002406546485023965365202242256653492432566526324262265407243622655932452256571524622566016248649660152486486609924965266098249651661342502370000000000066212251244662132512456650425622666559257226665572572246660825822566998269226669702682266710427322367127274224277810841832778208418454322181426541421804260006001330100061013302002740152930027501529400350016223000000000000038701626100386016260003930162670039401626800397016271000000000000042001629400000000000007620182720057101727200763018273005720172730076401827400573017274009510192430095001924200977019269007590182690119902027500983019275012000202760098401927601414021277012010202770141502127801202020278014160212790120302027901417021280012040202800141802128101205020281014210212840142202128501429021292014300212930187302329501657022295024850263150000000000002511026561000000000000320802955703209029558034520305670345103056603532031248000000000000354703126303546031262038630325510386403255203884032572038850325730405703330600000000000044310345780443003457704925036295049260362960513203712700000000000053360375420533503754105415037624054140376230571803854905719038550058230386540582403865506118039535061190395360663104058506168039585067770410510677804105206949041266074750422660736004210806829041107074810422720748004227107503042294075040422950767704257007676042569)))))
 (.node 8 (.node 4 (.node 2 (.node 1 (.leaf 773304262607734042627077560426490775704265007774042667077750426680780904270207808042701079090431030790804310208245043581082460435820831004364608311043647084020440380840104403708592044259085910442580877904454408778044543088170445820881804458308834044599088350446000886404462908293043629089250446900892404468909014045078090130450770916704525909166045258093680455610936904556209438045631088660446310955204603909551046038096430461300964204612909712046215097110462140976204627910347047279097980464071040004740709901046515093220455151007104668509491045684103510472830000000000010404047411104030474101047304748010472047479106720476791006404667810759048050107580480491080004809110193047092108330481241083204812311191048598117740495981144804914611449049147116100494290000000000011698049522116990495231175404957812334050578118220496461182104964511856049680112720486791220905045312208050452123140505581231505055912318050562123170505611234205058612343050587124560507001245705070112516051069125150510681260105115412602051155126720512590000000000012771051445127700514441303805171212469050713130970520881366505308713358052474133590524751391605348713917053488140600536311405905363014206054088142050540871426105414314260054142142730541551373405315614360054395000000000001454305458214011053582146550546941465405469314740055087147390550861478205512914783055130148120551591481305516015164055660151650556611523805604515237056044)
 (.leaf 1544705641615961057416154930564621549205646115589056558155880565571582605711115827057112160620575181606105751716353058138168580591381647705842816476058427166240585751611905757516847059127163430581281688505916516886059166169930594461699405944717106059559171050595581748806047217489060473175120604961751306049717615060599176160606001763206061617633060617176510606351765006063417746061108177470611091778006114217779061141178840614231744006042418244062169178080611701826706222000000000000183940624871839506248818426062519184270625201843906253218438062531185200626131852106261418784063456191920644571912606438300000000000193570646221895006362219366064631193650646301947006515519884066155195910654351959206543619646065490196470654911971106555519289064554197280655721972906557319825066096198240660952002606645220440067452201760666021975806560220261067117202620671182031806717419903066174203470672211993006622120527067539205280675402082006841520819068414209160685112091506851020935068530209340685292116806920721167069206212380694062123706940521529070134211020691342153907014421112069144215810701862158207018721711070438217120704392174507047221744070471217620704892132206949021837070564213960695642193707110000000000000220170711802201807118122314071592218660705932242207213722423072138224880722082248707220722921073188229220731892296607323522967073236232060735752366307457423245073614237040746152334907416023810075160))
 (.node 1 (.leaf 2347207438323013073382234780743892347707438823726074637237270746382376507511524223076115238510752052385007520423952075401239510754002396907541824429076419239710754202397207542124080075529240790755282437807636824377076367245040764942495207749424558076548245570765472474507718524746077186247660772062476507720524882077424248810774232493007747224481076471251410781382514207813925399078500258330794992547207857325031077573254880785892548907859025583079138251420781392603608015826037080159260480801702561507917026137080376261360803752620208044126203080442263580805972593207959826429081124268630821242676308156526764081566267680815702633208057127313083145273140831462733308316526904082165273870832192738808322027452083388274530833892750508344127935084441275490834852755008348627609083545276100835462761108354727610083546277380841402773908414127992084498279910844972802208452827591083527280790845852765008358628273085360282720853592833108541828751086418288390865112883808651028935086607293400876072895608662828541085628290060871472900708714829062087203290630872042914508740029547088400294510881892945208819029543088396295440883972997308943529972089434302330901743062909117530337090397303380903983040909048330012089482308140915053043009050431209092518312080925173129609260531297092606314700933690000000000031726094129317250941283246609615432815097155326520965053301409750432679096532326780965313288309734432882097343)
 (.leaf 3307009756032708096561336590994273330309842833687099455336880994563375609952833757099529337720995443377109954333825099597341751005973395510034434301101343340391004553404010045634057100479340561004783406610048834065100487341101005323411110053334184100608000000000003425110116534252101166344361015153443710151634442101521340991005213445610153534457101536345631021393489310314034737102481347361024803494810319534947103194349681033443530010434435030103437350311034383524410415835245104159354131044993574410549835506104592351771035933626510715936266107160365921081643627110716536725108482364071074823726911018436934109183374851105793748611058037670111447376711114483773611151337418110512378861121653788711216637957112373376461113733809011255338402113553381011125643778611156338135112598381361125993817911314538488114145382671133723795611237238475114132384741141313858011437538270113375387661145953844411359539075115583393941165843913911616539456117166392981164883963011748839443117153394441171543947411718439804118184395891174473925811644839646117504399801185033965411751239653117511401221191644012311916540369119553407001205544037811956240708120562407181205724071912057340996121534409971215354102712156541028121566410381215764103712157541054121592407381205924112212234241440123341412781225024127712250141333122557416521235574135912258341360122584415501234514123212245241772124359420761253594182312441041509123410)))
 (.node 2 (.node 1 (.leaf 4210412538742105125388425281265174252912651842825127521431221285224283012752642831127527432491293414353713034043269129361429721283614330612939843009128398433121294044331112940343466129573434671295744393013145844211132458439501314994394913149844003131552442881325524428413254844564133548444591334204417713242044595133579445961335804481213451345098135513451831361490000000000045550137380455511373814570913757045710137571459421385330000000000046135139451461361394524618713953046188139531466361414584639414045846919142519469201425204706414337247063143371472171441550000000000047284144354000000000004734414441447345144415473511444214711314342147544145390475451453914776114638447979147384480481474594826514846048065147516480661475174855815033748557150336487851513664897515236648850151431486521504314889315156048894151561489561523474895715234849127153327491261533264915015335048959152350491841533844918515338549352154369493511543684937715439449376154393497891564434997115744350114158390499181573905012415840050123158399503561594325035515943150478160357506801613575067716135450883162354507401614175074116141850910162381509091623805092716239850926162397510301632105083216221051240164226512411642275141616521251226164212517601664545176116645551806167224518071672255203416835252220169352521241684485230916944952470170432526321714325264417144452804172444527001722215270117222252739172379000000000005292917341052928173409)
 (.leaf 5339317639153394176392534121764105357917740953525177237537051782375387317922453874179225539761794425397717944354096180380542761813805411418039854113180397544131822175441418221854812184217548131842185513718544100000000000552161862135521718621455274186271550651852715530318639855302186397554631872435524718624455675188252556761882535592418940655732188406559271894095573518840956004190202560051902035626119127356076190274563121914185631119141756419192239562271912395647919239356287191393564901924045629819140456587193221564021922225708719543657088195437571651962255697019522557331196646000000000005745619740357248196403575821982425739219724357759199247575861982465776619925457767199255578041993895780319938857938200263577751992635804620121257886200211581732014395817420144058216202226580612012275821720222758061201227585582042575840020325858559204258584002032585861720441758457203417586952052335853320423259277208421594492094205943520940659434209405594592094305963021043059747211270597482112715979221141459793211415598962122345989521223360282214234600902132336033421438760333214386604602152256065021622560531215397605322153986054021540660729216406606202156410000000000061147218624609732176246121221924561211219244612242192576140522025761409220261612282192616183422240761640221408618552224286185622242962232224418622332244196228822461700000000000623082246376249722563762352225235625432262366246922560962280224609))
 (.node 1 (.leaf 6308822923763268230238631692295886316822958763561231639635602316386364623240163808233401637292326446389023364363879233632640412346326409323523264256236233641442354106430423640964272236249642712362486454723765664546237655646572386116480823961164773239409647722394086482323962664972240626649652406196511424161965032241235000000000006510124160665102241607653492432566534824325565407243622000000000006571524622565831247226660982496516609724965066213251245000000000006655925722666560257227666082582256660925822666970268226669392672276712727422467128274225102190471181082704811827782084184277830841855414218042653960179426000610133020000000000000275015294002760152950038601626000000000000003940162680000000000000571017272003980162720057201727300399016273005730172740040001627400759018269005680172690095001924200949019241009830192750076501827500984019276007660182760120102027700985019277012020202780098601927801203020279009870192790120402028000988019280012050202810098901928101422021285012090202850143002129301431021294016570222950165802229603209029558029680285580345103056603450030565035460312620354503126103864032552038650325530388503257303886032574044300345770442903457604926036296049270362970533503754105709038540054140376230000000000005719038550057200385510611903953606120039537061680395850575303858406778041052067790410530682904110706828041106074800422710747904227007504042295080520432950767604256907675042568)
 (.leaf 773404262707735042628077570426500831504365107775042668072270416680780804270100000000000079080431020735404210208246043582082470435830831104364708312043648084010440370840004403608591044258000000000000877804454309349045542088180445830881904458408835044600088360446010886604463108865044630089240446890835204368809013045077090120450760916604525800000000000093220455150875004451509369045562087980445630949104568408919044684095510460380955004603709642046129096410461280971104621409710046213101930470920960404609110347047279109520482791040004740711010048408104030474101040204740910472047479098650464781075804804910757048048108320481231083104812211272048679112710486781144904914711450049148116990495231111704852411774049598117750495991182104964511238048645122080504521220705045112315050559123160505601231705056112316050560123340505781290405157812343050587123440505881245705070111878049702124690507130000000000012515051068125140510671260205115512603051156127700514441276905144313359052475128010514751366505308713664053086137340531561373505315713917053488139180534891405905363014590054629142050540871420405408614260054142142590541411465405469315196055693147390550861420305408514783055130153240561311481305516014814055161151650556611462205466115237056044152360560431549205646115491056460155880565571558705655615827057112158280571131596105741615962057417160610575171606005751616119057575156060565751634305812815843057128))))
 (.node 4 (.node 2 (.node 1 (.leaf 1647605842716475058426168580591381685705913716886059166168870591671699405944716995059448171050595581710405955717440060424169710594241748906047317934061473175130604971704405949717616060600176170606011763306061717634060618176500606341809506163417747061109177480611101777906114117778061140178080611700000000000018395062488188170634891842706252017982061521184380625311843706253018521062614185220626151895006362218528062621191920644571919306445819289064554192880645531936506463018958063630195920654361917106443619647065491196480654921972906557319730065574197580656021933806460319824066095000000000001988406615519883066154199300662211951006522120262067118202630671192052806754020114066540208190684142081806841320915068510213410695092093406852920517067529211020691342069206813421112069144207020681442116706920621166069205212370694052123606940421322069490208960684912139606956420969068564215820701872158307018821712070439221620714402174407047121303069471218660705932142506959322018071181215760701812242307213822424072139224870722072248607220622922073189229230731902296707323622968073237230130733822301207338123477074388230190733882366307457423662074573237040746152416707561623727074638237280746392381007516024268076160238500752042384907520323951075400239500753992397207542124431076421240790755282407807552724223076115246750771152437707636700000000000244290764192487807742024481076471244800764702455707654724556076546)
 (.leaf 2474607718624295076187247650772052476407720424881077423248800774222495207749424951077493251420781392514307814025489078590254900785912561507917025614079169258330794992539807849925932079598254970785982603708015926038080160261360803752570907937526203080442262040804432633208057126333080572267640815662676508156726863082124268620821232690408216526470081165273140831462731508314727388083220000000000002745308338927454083390275500834860000000000027591083527271610825272761008354627180082546276500835862765108358727739084141277400841422799108449727990084496282720853592827108535828541085628281230846292875108641828752086419288380865102883708650929007087148285930861492906308720429467088205293400876072973808860729452088190294530881912954708840029942089400299720894340000000000030012089482300110894813033809039830339090399304300905043042909050330629091175306300911763120809251731207092516312970926063167109360731725094128313490931273267809653133041097531327080965613235409556132815097155328160971563288209734332881097342330140975043337409850333303098428333040984293368809945634041100457337570995293375809953033771099543337700995423404010045634041100457340561004783370509947734065100487344081014873409910052133749099521341111005333411210053434175100597345191015983425210116634253101167343011013433430010134234437101516340941005163473610248034735102479348931031403522510413934947103194346181021943503110343835360104437))
 (.node 1 (.leaf 3517710359334849102593352451041593524610416035300104344356301053453574410549835743105497362661071603626710716136271107165362721071663640710748236082106482369341091833661210818437418110512370901095113767111144837985112448377861115633778511156237887112166378881121673795611237237645111372381361125993782311160038270113375379591123753840211355338725114554384441135953844511359638474114131384731141303848811414538804115146392581164483925911644939394116584397261175843944411715439445117155394561171663978611816639630117488399651184883965311751139652117510398041181840000000000039980118503403181195024012311916540462120166407001205544101712155540708120562410241215624099712153540998121536410281215664102912156741037121575407201205744123212245240919121453412771225014159512350041360122584413611225854144012334141439123340415091234104119012241041652123557419651245584207612535942379126359421051253884210612538942529126518428231275194283112752742832127528429721283614267812736143009128398427161273994312212852243416129523433111294034301412840343467129574437431305744353713034043815131340441771324204389613142144211132458442121324594428813255244568133552445641335484484813454945098135513450971355124555113738145552137382457101375714597113857246136139452461371394534618813953146189139532463941404584639514045946920142520471771435214706314337100000000000473451444154757014541647545145391477681463914797914738448192148384)
 (.leaf 4806614751748067147518482651484604826614846148557150336485561503354865215043148447149431488941515614908215256148957152348489581523494895915235048770151351489751523664897415236549126153326000000000004918515338548995152386493511543684953415536849376154393000000000004991815739049736156390499711574430000000000050123158399503221593985035515943150354159430506801613575088616235750741161418507421614195083216221050627161210508831623545108416335550909162380511091633805092616239750719161396512261642125103216321251761166455519451674555222016935200000000000523091694495248817045052632171432527921724325270117222252702172223528041724445296317344452928173409527681724085339417639253562177392535791774095357817740853705178237538851792365387417922554055180225539601794265377617842653977179443539781794445411318039754112180396542761813805427518137954414182218544151822195481318421855013185219550651852710000000000055247186244550391852455530218639755092185396556761882535547318725355732188406557311884055573518840955533187409560051902035581818920356076190274558891892745622719123956041190239562871913935610119039356298191404561111904035631119141756310191416564021922225640319222356970195225569711952265708819543757089195438572481964035705419540357392197243571831962435758619824657585198245577671992555759519825557775199263576031982635780319938857631198387578862002115772319921158061201227580622012285817420144058017200440)))
 (.node 2 (.node 1 (.leaf 5840020325858248202258584572034175845620341658533204232585322042315943420940559605210405594492094205962021042059630210430598072114295974821127159572210271597932114155979421141659895212233597092112326009021323359894212232603332143866033221438560532215398605332153996065021622560836217225607292164066073021640760973217624607912166256121121924461391220243612282192616122721926061856222429616622214306223322441962234224420622802246096227922460862497225637626852266386254322623662729227237631682295870000000000063268230238632692302396356023163863723232638638082334016397023440063890233643640522346436404123463264205235633642562362336441823723464271236248644312372476430423640964464237409645462376556470023865464772239408646182384076480823961164807239610649722406266497324062765102241607652492426086511424161965260242619653482432556549124425565831247226659412482266609724965066096249649665602572276656125722866609258226666102582276693926722766902266228671282742256715127522627783084185277840841860027601529500277015296003980162720000000000000399016273000000000000040001627400255015274005680172690039501626900765018275005740172750076601827600575017276009490192410073001824000985019277007670182770098601927800768018278009870192790076901827900988019280007700182800098901928100771018281012090202850099301928501431021294014320212950165802229601433021296034500305650344903056403545031261037630322610386503255303866032554)
 (.leaf 388603257400000000000044290345760442803457504927036297049280362980570903854005708038539057200385510572103855205753038584057540385850612003953705707038538067790410530678004105406828041106063310401060722704166807228041669073540421020735504210307479042270074780422690767504256807674042567080520432950000000000008247043583082480435840831204364808313043649083520436880835104368708400044036083990440350875004451500000000000087980445630879904456408819044584082480435840883604460108837044602088650446300829304362908919044684089180446830901204507609011045075093490455420934804554109550046037095490460360960404609109603046090096410461280964004612709710046213000000000000986504647810470047477104020474091101104840910757048048107560480471083104812210830048121109520482790000000000011010048408000000000001111704852410517047524112380486451063904764611271048678112700486771145004914811451049149117750495991235505059911878049702118790497031220705045111626049450123160505601288605156012344050588123450505891251405106712513051066126030511561203405015712801051475122310504751290405157813462052578136640530861309405208513735053157131670521581391805348913373052489142040540861420305408514259054141142580541401462205466114623054662148140551611481505516215196055693151950556921523605604315235056042154910564601496405546015587056556155860565551560605657515607056576159620574171647005841816060057516160590575151647505842616972059425))
 (.node 1 (.leaf 1685705913716351058136168870591671688805916816995059448169960594491704405949717045059498171040595571710305955617617060601171480596011763406061817166059619177480611101730606011017778061140177770611391793406147317933061472180950616341809406163318437062530188570635291852206261518523062616188170634891881806349018958063630189570636291917106443618764063436191930644581961506545919288064553192870645521933806460318931063603195100652211909506422119648065492196490654931973006557419731065575198830661542029806715420114066540201150665412026306711920264067120205170675292010306652920692068134202780671342070206814420703068145208180684132040006741220896068491204800674922096906856420968068563211660692052116506920421236069404212350694032130306947121302069470213410695092134006950821425069593214240695922157607018121149069181215830701882115706918922162071440221630714412242407213922425072140224860722062248507220522923073190233800741912296807323722969073238230120733812301107338023019073388225610723892366207457324123075572238490752032384807520223950075399234880743992407807552723616074527241670756162462707661724268076160242690761612429507618724296076188244310764212487907742124480076470244790764692455607654624555076545246750771152511907811624764077204247630772032488007742225320078421249510774932495007749225143078140251440781412539807849925397078498254900785912504907759125497078598250570775992561407916925613079168)
 (.leaf 2570907937525273078374260380801602603908016126204080443262050804442633308057225906079572264700811652604308016526765081567267660815682686208212327291083123271610825272672508152727180082546267440815462745408339027455083391276510835872765208358827740084142277410841432799008449628408085495281230846292769308362928271085358282700853572859308614928594086150287520864192916508742028837086509292410875082945308819129454088192294670882052946808820629738088607297390886083033909039930340090400304290905033042809050230630091176310180921773120709251631206092515313490931273096709212631671093607320370946073235409556100000000000328160971563281709715732881097342000000000003304109753133042097532333040984293294909742933374098503333730985023370509947733704099476337580995303375909953133770099542337690995413404110045734386101458340941005163409510051734112100534341131005353425310116734254101168343001013423463610234134519101598000000000003461810219434617102193347351024793473410247834849102593345151015943522510413935554105138352461041603491410316135360104437356881054363563010534500000000000357431054973574210549636082106482357271054813626710716136590108162362721071663627310716736612108184362901071843709010951136753108510376451113723764611137337785111562374671105613782311160000000000000378881121673788911216837959112375376481113753798511244838297113448384451135963844611359738725114554387261145553880411514639120116146))))))
 (.node 16 (.node 8 (.node 4 (.node 2 (.node 1 (.leaf 3944511715539776118156396521175103965111750939726117584400621185853978611816640125119167399651184883996411848740318119502406481205024046212016640789121167409191214534060112045340998121536409991215374101712155541332122556410241215624133812256241029121567410301215684119012241040876121410413611225854104712158541439123340414381233394159512350041906124499419651245584226712555842106125389421071253904237912635900000000000426781273610000000000042716127399427171274004282312751943120128520428321275284312812852843014128403427201274034374313057444026131575438151313404409713234043896131421436181304214421213245944494133460445681335524485113455244848134549451341355494509713551245096135511455521373824555313738345971138572462191395734613713945345886138454461891395324619013953346395140459461431394594717714352147413144521475701454164757114541747768146391477691463924806714751847854146518482661484614847514946248447149431482391484314855615033548350149334489581523494876815134948974152365491651533654899515238648996152387490821525614927215356149534155368497141563685032215939850518160397503541594305015415843050742161419507431614205103216321250834162212510841633555108516335651109163380511081633795194516745552131168455524881704505265017145052702172223527031722245276817240852767172407527921724325295117343252963173444531181744445356217739253563177393535781774085357717740753776178426535951774255388517923654066180236)
 (.leaf 5397817944454161180445540551802255405618022654275181379544671823785441518221954416182220550131852195501418522055039185245550401852465509218539655091185395554731872535547418725455533187409553141864095573118840555730188404558181892035581918920455889189274556971882745610119039355911189393561111904035611019040256310191416563091914155640319222356404192224569711952265697219522757054195403568631944035708919543800000000000571831962435698819524357585198245573941972455759519825557404197255576031982635741219726357631198387576301983865772319921157551198211580172004400000000000058062201228579042002295824820225858092201258584562034165830520241659572210271594032092725960521040559606210406596202104205979921142159709211232595332102325979421141659795211417598072114295999221242959894212232597082112316033221438560331214384605332153996053421540060730216407607312164086079121662560605215626608362172256101121822561227219260612262192596139122024361581221243616622214300000000000062234224420622352244216227922460862278224607626852266386268622663962729227237627302272386326923023963444231240637232326386388523363863970234400641342354006405223464364215235643642052356336420623563464418237234645772382346443123724764590238247644642374096446323740864700238654648502396536480723961064956240610649732406276512224162765249242608653942436096526024261965405243620654912442550000000000065941248226660412492266609624964966015248648))
 (.node 1 (.leaf 6656125722866562257229666102582276661125822866902266228669032662296715127522667152275227277840841862821108518730011089481300100894800025501527400000000000002770152960027801529700395016269000000000000057401727500401016275005750172760040201627600730018240007290182390076701827700576017277007680182780057701727800769018279005780172790077001828000579017280007710182810058001728100993019285007750182850143202129501433021296034490305640344803056303763032261037620322600386603255403646031555044280345750442703457404928036298049290362990570703853805708038539057210385520572203855305754038585057550385860633104010600000000000067800410540678104105507228041669067150406690735504210306825041103074780422690747704226808248043584082490435850829304362907736042629083130436490831404365008351043687083500436860839904403508398044034087990445640880004456508837044602088380446030891804468308346043682090110450750901004507409348045541093470455400954904603600000000000096030460900902604509009640046127090630451271047004747710469047476105170475240991004652410639047646100310466451075604804711348049046108300481211082904812011011048409000000000001127004867710671047678114510491491145204915011626049450110420484491187904970311880049704120340501571203505015812231050475116500494741234505058912346050590123550505991292605160012513051066119420500651309405208513093052084131670521581316805215913373052489133740524901346205257814008053579)
 (.leaf 1420305408514202054084142580541401425705413914623054662151670556631481505516214816055163149640554601496305545915195055692151940556911523505604215234056041155860565551558505655415607056576150800555761605905751516058057514163510581361635005813516470058418164710584191688805916816889059169169720594251697105942416996059449164980584491704505949816548058499171030595561660405855517166059619171670596201730606011017307060111177770611391821306213817933061472183790624721809406163318093061632185230626161852406261718764063436187650634371881806349019226064491188570635291885606352818931063603185100626031895706362918535062628190950642211909606422219287064552192860645511961506545919616065460197310655751931006457520103066529201020665282011506654119697065541202640671202026506712120278067134202790671352029806715420297067153204000674121998506641120480067492200660664922070306814520704068146209680685632055106756321149069181211500691822115706918900000000000211650692040000000000021235069403212340694022130206947020875068470213400695082133906950721424069592214230695912216307144121715070442224250721402287407314122485072205224840722042256107238900000000000229690732382297007323923011073380225510723792338007419123381074192234880743992348707439823616074527231580735272384807520200000000000242690761612472207716224296076188247490771892447907646924478076468245550765452455407654424627076617250740776162476307720324762077202)))
 (.node 2 (.node 1 (.leaf 2487907742124878077420249500774922450207649225049077591246010765912505707759924610076600251190781162556107911625144078141251450781422527307837424831077373253200784212575507942125397078498258320794982561307916825612079167260390801612604008016226205080444262060804452672508152726726081528267440815460000000000026766081568263300805692729108312327721084123274550833912745608339227652083588276530835892774108414327742084144282700853572826908535628408085495288230864952859408615028174085150291650874200000000000029241087508296380885072945408819229455088193294680882062986608920729739088608301390896093042809050230427090501309670921263058009112631018092177313990931773120609251531205092514320370946073240009560732817097157328180971583294909742932950097430330420975323304309753333373098502333720985013370409947600000000000337590995313376009953234095100517340961005183411310053534114100536342541011683425510116934386101458000000000003451510159434851102595346171021933461610219234636102341000000000003473410247834398101477349141031613491510316235554105138355531051373568810543635687105435357271054813539410448035742105496357411054953629010718435938106183365901081623659110816336753108510367521085093746711056137466110560376481113753764711137437889112168378901121693829711344838298113449384461135973844711359838726114555390481155563912011614639121116147396511175093998511850839776118156401141191563996411848740302119486)
 (.leaf 4006211858540402119586401251191674046312016740601120453402701194544064812050240964121502407891211674110612216840876121410408771214114099912153741000121538410301215684134412256841332122556416511235564133812256241657123562414381233394143712333841906124499422071254984210712539041803124390422671255584256912655842717127400424201264004272012740342423126403431201285204312112852143618130421433291294214402613157544311132575440971323400000000000044494133460444951334614485113455245137135552450961355114509513551045134135549451351355504555313738345818138383458861384544562213745546143139459461441394604619013953300000000000462191395730000000000047413144521474141445224757114541747572145418477691463924777014639347854146518478551465194823914843148026147431483501493344814214833448475149462000000000004876815134948769151350491651533654934815436549272153561000000000004971415636849896157368501541584304995815743050518160397507191613965083416221250628161211510851633565088516235651108163379511071633785213116845552315169455526501714505281117245152703172224525371712245276717240752766172406529511734320000000000053118174444532811754445356317739353743178393535951774255342617642454056180226540571802275406618023654242181236544161822205461118322154467182378544661823775501418522055015185221550911853955509018539455314186409551061854105569718827455494187274557301884045572918840355819189204558201892055591118939355719188393))
 (.node 1 (.leaf 5630919141556308191414564041922245621219122456863194403566731934025697219522756973195228569881952435679719424357394197245573931972445740419725557403197254574121972635720319626357551198211573591972105763019838600000000000580922012585793420025958305202416581512014175940320927259229208272595332102325936320923259606210406597842114065970821123159707211230597952114175979621141859992212429599932124306033121438460330214383605342154006053521540160605215626000000000006073121640860542215408610112182256101021822461226219259612252192586158122124361582221244622352244216223622442262278224607620822236076268622663962865227639627302272386273122723963444231240636122322416388523363864046234637641342354006429523640064206235634643672366346421523564364214235642644632374086461823840764577238234645782382356459023824764589238246648502396536484923965264956240610649552406096512224162765268242627653942436096553424460965405243620000000000006601524864866014248647660412492266612325022666611258228666502592296690326622900000000000671522752276715327522828211085187282120851880027801529700279015298004010162750025601527500402016276002570152760057601727700403016277005770172780040401627800578017279004050162790057901728000406016280005800172810040701628100729018239007280182380077501828500584017285014330212960143402129703448030563034470305620364603155503647031556037620322600401103326004427034574044260345730492903629904930036300)
 (.leaf 570803853905333037539057220385530572303855405755038586053810375870671504066906716040670067810410550678204105606825041103063270401020747704226807476042267077360426290773504262808249043585082500435860834604368208345043681083500436860834904368508398044034089700450340880004456508229043565088380446030883904460409010045074090090450730902604509008454044090090630451270906404512809347045540093460455390991004652409909046523100310466450945204564510469047476110680484751067104767810064046678108290481201082804811911042048449110410484481134804904610755048046114520491501145304915111650049474110660484731188004970411881049705119420500651194105006412035050158120360501591234605059011767049591129260516001292705160113093052084136610530831316805215913169052160133740524901281605149014008053579140090535801420205408414201054083142570541391425605413814816055163142810541631496305545914962055458150800555761507905557515167055663151680556641519405569115193055690152340560411523305604015585056554155840565531605805751416057057513163500581351584905713416471058419164720584201649805844916499058450166040585551660305855416889059169168900591701697105942416970059423171670596201716805962117307060111173080601121809306163218092061631183790624721880006347218510062603180640616031852406261718525062618185350626281853606262918765063437191730644381885606352818855063527190960642221869006322319226064491192270644921928606455119285064550))))
 (.node 4 (.node 2 (.node 1 (.leaf 1931006457519311064576196160654602003506646119697065541196960655401998506641119984066410200660664921964906549320265067121206800681222027906713519865066136202970671532071106815320704068146207050681472087506847020874068469211500691822115106918321234069402000000000002133906950721338069506214230695912099606859121715070442217160704432248407220422483072203225510723792255007237822874073141228750731422297007323900000000000231580735272315707352623381074192233820741932348707439823486074397244780764682447707646724502076492240430754922455407654424095075544246010765912460207659224610076600241520756012472207716224271076163247490771892475007719024762077202000000000002483107737324382076372248780774202531907842025074077616255140786152514507814225146078143255610791162599508011725612079167251700781672583207949825831079497260400801622604108016326206080445266440814462633008056926331080570267260815282628808052727456083392274570833932765308358927224082590277210841232772008412227742084144277430841452817408515028175085151282690853562826808535528823086495292270874942986608920729867089208301390896093014008961030427090501304260905003058009112630579091125312050925143082209151331399093177317740941773240009560732399095606328180971583318209815932950097430329510974313304309753333044097534333720985013372809950033760099532337610995333409610051834097100519342551011693425610117034398101477343971014763461610219234615102191)
 (.leaf 3485110259500000000000349151031623491610316335394104480350631034793555310513735891106136356871054353603710643635741105495357401054943593810618335599105183365911081633691510916436752108509370871095083746611056037139109560376471113743764611137337890112169378911121703829811344938620114449384471135983876911459839048115556393671165573912111614739438117148399851185084032311950740114119156404531201574027011945440271119455403021194864030111948540402119586404031195874046312016740464120168408771214110000000000041000121538410011215394110612216800000000000414371233384111712233741651123556419641245574165712356241658123563418031243900000000000042207125498425091264984242012640042421126401424231264034212012540342569126558428621275584312112852143415129522433291294210000000000044311132575443121325764449513346144496133462450951355104509413550945135135550454171365504513713555245419136552456221374554562313745645818138383460711393834614413946046145139461474141445224763614552347572145418475731454194777014639347771146394478551465194785614652048026147431480251474304814214833448141148333487691513504877015135149958157430499571574295062816121150627161210507191613965051616039550885162356508861623575110716337851301164378523151694555249317045552537171224523651702245276617240652765172405528111724515297017345153281175444534461764445342617642453261175424537431783935392717939354057180227540581802285424218123654432182236))
 (.node 1 (.leaf 5446618237700000000000546111832215461218322255015185221550161852225509018539455298186393551061854105489918441055494187274552781862755571918839355518187394557291884035572818840255820189205558211892065621219122456027190225563081914145630719141356673193402564871924015697319522856783194229572031962635700919526457359197210573601972115739319724457184196244574031972545719419625457934200259577711992595815120141757994200417592292082725905720727259363209232591892082325970721123059531210230597842114065996921240659993212430601862134306033021438300000000000605352154016053621540260542215408605432154096101021822461009218223612252192586140522025761582221244617792222446208222360761886222606622362244226242822542362731227239629112282406286522763963042228639636122322416377623324264214235642642132356416457823823564579238236645892382466474423924664618238407646172384066484923965264997240651649552406096510424160965268242627654122436276553424460965664245609660142486476609324964666123250226661942512266665025922966651259230671532752280000000000028212085188282130851890025601527500125014275002570152760012601427600279015298002800152990040301627700258015277004040162780025901527800405016279002600152790040601628000261015280004070162810026201528100584017285004110162850072801823800536017237014340212970143502129803447030562034460305610364703155603648031557040110332600401003325904426034573044250345720493003630004931036301)
 (.leaf 533303753905332037538053810375870504803658805723038554057240385550632704010200000000000067160406700625203966906782041056062890400560747604226707475042266077350426280718704162808229043565082300435660825004358608251043587083450436810778804268108349043685083480436840845404409007896043090088390446040884004460508970045034000000000000900904507309585046072090640451280849304412909346045539093450455380945204564508881044646099090465230932904552210064046678094850456781075504804611347049045108280481191082704811811041048448104410474481106804847511067048474114530491511145404915211767049591117680495921188104970511882049706119410500641194005006312816051490122460504901292705160112928051602131690521601260805116113661053083136600530821400905358014010053581142010540831420005408214256054138142550541371428105416314282054164149620554581496105545715079055575145370545761516805566414625054664151930556900000000000015233056040157540570391558405655315583056552158490571341532705613416057057513165620585131647205842016473058421164990584501650005845116603058554160970575531689005917000000000000169700594231696905942217168059621171690596221730806011216832059112180640616031806306160218092061631180910616301852506261818526062619185360626291853706263018690063223000000000001880006347218799063471188550635271885406352619173064438191740644391922706449219228064493192850645501928406454919311064576189050635771964906549319650065494)))
 (.node 2 (.node 1 (.leaf 1969606554019695065539198650661361986606613719984066410199830664092003506646120450067462206800681222068106812320705068147207060681482087406846920873068468209960685912057906759121151069183207410681832171607044321275069443224830722032248207220222550072378225490723772287507314223332074143231570735262315607352523382074193233830741942348607439723027073396240430754922404407549324095075544236330745442415207560123690074601242710761632381407516424382076372239220753712447707646724476076466246020765922460307659324750077190247510771912514607814325147078144251700781672516907816625319078420257550794212551407861525949079615258310794970000000000025995080117264220811172604108016326042080164262880805272628708052626331080570259050795712664408144626645081447272240825902765408359027457083393274580833942772008412227289083121277430841452774408414628175085151277490841512826808535500000000000292270874942962508849429867089208294710882093014008961029742088611304260905003042509049930579091125301840901253082209151330439090513317740941773177509417832399095606327520966053295109743132595096431330440975343340609853533182098159331830981603372809950033727099499337610995333376209953434097100519337480995203439710147634396101475346151021913427710119134916103163349171031643506310347935062103478355991051833559810518235740105494357391054933589110613636242107136360371064363636110743636915109164369161091653708710950837086109507)
 (.leaf 3713910956036803108560376461113730000000000037891112170378921121713862011444938621114450387691145983909111559939367116557396991175573943811714839769118149402711194554060412045640301119485403001194844032311950740322119506404641201684079012116841001121539410021215404111712233700000000000416581235634197012456341964124557422661255574242112640142118125401425091264984280212749842862127558431581285584341512952243416129523443121325764431313257744496133462444971334634509413550945377136508454191365524541813655145623137456456241374574607113938346325140383461451394614614613946247573145419000000000004763614552347859146523477711463944777214639547856146520480701475214802514743047807146430481411483334792714733248770151351485711503504995715742949774156428505161603955031815939450627161210504261602105088616235750887162358513011643785130016437752365170224521771692245249317045552492170454527651724055260417140452970173451531251744515326117542453260175423534461764445361517744553927179393541091803935405818022854059180229546121832225461318322354899184410546931834105501618522255017185223552781862755527918627655518187394552991863945572818840255727188401558211892065582218920756027190225558411892265648719240156295191401567831942295678419423057009195264568181942645718419624456989195244571941962545699919525457360197211571511962115777119925957599198259579942004175783219941759057207272590582072735918920823259017207232))
 (.node 1 (.leaf 5953121023059361209230599692124066016321340760186213430603772144306053621540260726216403610092182230000000000061405220257615942212566177922224461974223244618862226066169322160562428225423626172264246291122824063092229241630422286396322022963963776233242637772332436421323564164212235640645792382366458023823764617238406647692394056474423924664743239245649972406516499624065065104241609652502426096541224362765545244627656642456090000000000066093249646660922496456619425122666257252226666512592306668826023128213085189286340861900012501427500000000000001260142760000000000000258015277001270142770025901527800128014278002800152990028101530000411016285002660152850053601723700000000000014350212980143602129903648031557036490315580401003325904009033258044250345720414203357204931036301049320363020504803658804732035587053320375380499803653805724038555057250385560625203966906251039668062890400560587503905707187041628071880416290747504226607474042265078960430900734204209008230043566076730425660825104358708252043588083480436840834704368308493044129000000000000884004460508841044606088810446460888204464709329045522093280455210934504553809344045537094850456780948404567709585046072095840460711044104744800000000000108270481181082604811711067048474110660484731134704904511921050044114540491521086204815311768049592117690495931188204970611883049707119400500631193905006212246050490116650494891260805116112607051160)
 (.leaf 1292805160213486052602136600530821365905308114010053581140110535821420005408214199054081142550541371478905513614282054164137430531651453705457614538054577146250546641409405366514961055457154870564561575405703915753057038160970575531558305655216473058421169680594211650005845116501058452168320591121683305911317169059622166710586221806306160217619060603185260626191852706262018537062630180910616301879906347119205064470188540635261885306352518905063577189060635781917406443919175064440192280644931922906449419284064549192830645481965006549419229064494196950655391969406553819866066137194510651361998306640919982066408204500674622086706846220579067591201650665912068106812320268067124207060681482070706814920741068183207420681842087306846820872068467212750694432084906844422482072202224810722012254907237700000000000230270733962256907239723156073525226960725242333207414323794075144233830741942338407419523633074544236320745432369007460123689074600238140751642335307416423922075371239210753702404407549323582074493244760764662492307746524603076593241450755942475107719124752077192251470781442514807814525755079421261830804222590507957125906079572260420801642604308016526287080526262860805252642208111726421081116266450814472708108244727289083121272880831202745808339427888084394276540835902765508359127744084146277450841472774908415127320083152286340861902905008719129471088209294720882102962508849430024089494)))))
 (.node 8 (.node 4 (.node 2 (.node 1 (.leaf 2974208861129743088612301840901253018509012630425090499304240904983043909051330438090512317750941783213809517932595096431000000000003275209660533114097604331830981603318409816133406098535334070985363372709949933726099498337480995203374909952133762099534337630995353427710119134276101190343961014753439510147434917103164352511041653506210347834733102477357391054933573810549236242107136362411071353636110743636679108436368031085603680410856136916109165369171091663708610950737085109506378921121713789311217238621114450386221144513969911755740034118557397691181494010811915040300119484402991194834032211950640651120505406041204560000000000040790121168411071221694100212154041003121541419701245634227212556342118125401421191254024226612555742568126557428021274984309812849843158128558434511295584341612952343417129524443131325774431413257845377136508453761365074541813655145417136550456241374574534513645846146139462458941384624632514038346568141383477721463954777314639647807146430475831454294785914652348072147523479271473324792614733148070147521482841485214857115035048572150351497741564284959415542850318159394501171583935042616021050227159210508871623585108716335851300164377512991643765217716922451992168224524921704545265417145452604171404526031714035312517445153124174450532601754235325917542253615177445537951784455405918022954060180230541091803935429018139454613183223546141832245469318341054498182409)
 (.leaf 5501718522355227186224552791862765507018527655822189207560101902085584118922655649188226562951914015611019040256784194230565961932305681819426456631193265569891952445679719424356999195254568081942545715119621157150196210575991982595760019826057832199417576611984175901720723258853206231590582072735889520627359361209230591862082296016321340760355214408603772144306056421543060726216403609122174046159422125661791222256616932216056169222160461974223244621682242446261722642462798227425630922292416309322924263220229639632192296386421223564064211235639645802382376473523923764743239245648932402456476923940564615238404649962406506514424164965250242609653952436106554524462700000000000660922496456609124964466257252226663192532266668826023166689260232001270142770000000000000128014278000000000000026601528500265015284002810153000000000000001436021299014370213000364903155803650031559040090332580400803325704142033572000000000000473203558704441034588049320363020493303630304998036538049990365390572503855605350037556058750390570000000000006251039668058360386670718804162906675040629073420420900734104208907474042265074730422640767304256607674042567082520435880825304358908347043683077890426820888204464708883044648093280455210932704552009344045537099220465360948404567708912044677095840460710958304607010826048117108250481161086204815310863048154110660484731046604747311665049489110820484891176904959312349050593))
 (.node 1 (.leaf 1188304970712463050707119390500621193805006112607051160120360501591365905308113658053080137430531651317405216514011053582140120535831409405366513550052666141990540811365805308014538054577140050535761478905513615328056135154870564561599905745515583056552155820565511575305703816252058037165010584521599705745316671058622166720586231683305911316328058113169680594211696905942217619060603176180606021809106163017645060629185270626201852806262118906063578189070635791917506444019176064441192050644701962606547019229064494192300644951928306454818876063548194510651361904106413719694065538196930655371998206640819564065408201650665911974806559220268067124202690671252070706814920708068150207420681842032806718420849068444208500684452248107220100000000000225690723972211907139722696072524226950725232338407419500000000000235820744932312407349323632074543236310745422368907460023232073601237940751442379507514523921075370239200753692414507559424146075595247520771922430107619324923077465249220774642514807814525149078146259060795722547107857226043080165256110791662618308042226184080423262860805252585807952426421081116264200811152708108244727510083446272880831202771808412027655083591276560835922774508414727315083147278880843942788908439529050087191290510871922947208821029473088211297430886122974408861330185090126297850891263042409049830423090497304380905123043709051132138095179324910961793311409760433474098603)
 (.leaf 3318409816133185098162334070985363340809853733726099498333680984973374909952133393098522342761011903461410219034733102477347321024763525110416535581105165357381054923540510449136241107135362401071343667910843636680108437368041085613648610756136917109166369181091673708510950637411110505378931121723820611317238622114451386231144524003411855740373119557401081191504044612015040299119483399601184834065112050540650120504410031215414100412154241107122169000000000004211912540242120125403422721255634257412656342568126557428611275574309812849843391129498434171295244341812952543451129558437281305594431413257844315132579453451364584534613645945376136507453751365064541713655045689137550458941384624562913746246568141383468181423834758314542947358144428477731463960000000000047926147331477081463314807214752300000000000482841485210000000000048572150351483671493514959415542849411154428501171583935011615839250227159210500281582105108716335851088163359512991643765129816437551992168224518071672255260317140352602171402526541714545281417245453124174450532871754505325917542253096174422537951784455397917944554060180230540611802315429018139454482182393544981824095430518140954614183224546151832255507018527600000000000556491882265544718722756010190208558241892095611019040255920189402565961932305641119223156631193265564451922655679719424356609193243568081942545662119325557150196210569551952105760019826057409197260)))
 (.node 2 (.node 1 (.leaf 5766119841757470197417588532062315869320523158895206273587352052735918620822959014207229603552144086054321540960912217404610872184056169222160461497220604617912222566198522325562168224244623612252446279822742562975228425630932292426309422924363219229638632182296376421123563964210235638646152384046445923740464735239237647362392386489324024564892240244651442416496528924264865395243610653962436116609124964466011248644663192532266638025422666689260232667262612330026501528400264015283014370213000143802130103650031559036510315600400803325704007033256044410345880444003458704933036303000000000000499903653905000036540053500375560535103755705836038667000000000000667504062906676040630073410420890000000000007473042264069460412630767404256707126041567082530435890825404359008883044648088840446490891204467708341043677093270455200932604551909583046070095820460690992204653609921046535104660474731046504747210825048116114170491151086304815410864048155110820484891108304849011938050061119370500601203605015912037050160123490505931291905159312463050707124640507081317405216513175052166135500526661355105266713658053080130890520801400505357614004053575140120535831454405458315328056135153270561341558205655115581056550159990574551599805745416252058037162510580361632805811315828057113166720586231667305862416969059422174370604211761806060217149059602176450606291717605962918528062621185290626221890706357918486062579)
 (.leaf 1904106413718632063137191760644411917706444219230064495188240634961956406540800000000000196260654701962506546919693065537196920655361974806559219749065593202690671251985406612520328067184000000000002070806815021119069151208500684452043406744622119071397000000000002269507252322694072522231240734932266607249423631074542231740735432379507514523335074146239200753692391907536824146075595241470755962430107619324302076194249220774642492107746325149078146247060771462547107857225031077573256110791662516907816625858079524258570795232618408042326622081424264200811152641908111427315083147273160831482751008344627939084445276560835922722708259327718084120277170841192788908439527890084396290510871922905208719329473088211294740882122974408861329745088614297850891262938808812630423090497304220904963043709051130040089510324910961793283809717833185098162331860981633336809849733006097496333930985223339409852333408098537334090985383347409860300000000000346141021903461310218934732102476347311024753540510449135404104490355811051653592110616636240107134362391071333648610756136487107562366801084373668110843836918109167369191091683741111050537728111505382061131723851511417238623114452389451154533996011848339625117483403731195574070412055840446120150407731211514065012050440965121503410041215424100512154342120125403418171244044286112755743157128557433911294984366713049843418129525434191295264372813055943729130560))
 (.node 1 (.leaf 4431513257944596133580453461364594534713646045375136506453741365054562913746245630137463456891375504568813754946818142383470751433834735814442847357144427477081463314770714633048367149351481591483514941115442849227153427500281582100000000000050116158392501151583915108816335951282164359512981643755129716437451807167225516221662255260217140252601171401528141724540000000000053096174422529421734235328717545053286175449540611802315406218023254305181409543041814085461518322554616183226554471872275523018622755824189209558251892105592018940255919189401564111922315621919123156445192265562531912655660919324356423192243566211932555643519225556955195210569541952095740919726057410197261574701974175726219641758693205231585322042315873520527358574204273590142072295885120622960543215409605442154106108721840561088218406614972206046149622060361985223255621792242556236122524462551226244629752284256315422942663094229243632742302446321822963763392230637642102356386437123663864459237404644582374036473623923864886240238648922402446504124124465289242648652882426476539624361165536244611660112486446601024864366380254226664422552276672626123366727261234002640152830026301528201438021301014390213020365103156003446030561040070332560429003425604440034587044390345860500003654004685035540053510375570535203755806676040630062130396300694604126306945041262071260415670661204056608254043590082550435910834104367707784042677)
 (.leaf 888404464908314043650093260455190932504551809921046535105270475341046504747210464047471108640481551086504815611083048490104840474911193705006011936050059120370501601203805016112464050708124650507091291905159313476052592130890520801252705108013175052166131760521671355105266712994051668140040535751400305357414544054583145450545841532705613415326056133155810565501558005654915828057113158290571141599805745415997057453162510580361625005803516673058624161690576251714905960217148059601174370604211743606042018486062579184870625801852906262218084061623186320631371821306213819177064442195990654431962506546920042066468196920655361969106553519749065593193270645921985406612519440065125204340674462043506744721119069151211200691522266607249422217071495226940725222224507152323174073543227150725432333507414622880073147239190753680000000000024147075596236860745972430207619423845075195247060771462425407614624921077463249200774622503107757325032077574251690781662472607716625857079523258560795222641908111426418081113266220814242662308142527227082593272280825942731608314827317083149277170841192814308511927890084396278910843972793908444527938084444290520871932945508819329388088126289840871252974508861429746088615300400895103003908950930422090496300250894953283809717832837097177330060974963264309649633186098163328240971643339409852333395098524334090985383341009853934613102189349411031883473110247534395101474))))
 (.node 4 (.node 2 (.node 1 (.leaf 3540410449035073103489359211061663627310716736239107133365611081333648710756236488107563366811084383668210843936919109168369201091693772811150537727111504385151141723883011517238945115453392641164543962511748339624117482407041205584102012155840773121151407741211524096512150340964121502410051215434100612154441817124404415031234044315712855743450129557434191295264312712852743667130498439491314984372913056044011131560445961335804459713358145347136460453481364614537413650500000000000456301374634535013646345688137549459481385494707514338347313144383477071463304770614632948159148351481601483524922715342749036152427501151583914991915739151282164359512831643605129716437451296164373516221662255142916522552601171401524381704005294217342352783172423532861754495345117644954062180232542391812335430418140854124180408546161832265461718322755230186227550221852285582518921055826189211559191894015572718840156219191231562201912325625319126556066190264564231922435642419224456435192255564341922545695419520956763194209572621964175706819541757410197261572011962615853220423158531204230585742042735841520327358851206229586912052296054421541060545215411610882184066126921940661496220603613102196036217922425562178224254625512262446273722724563154229426631552294276339223063763559231637643712366386452823763764458237403642982364036488624023865035241238650412412446519024224465288242647654312436466553624461100000000000)
 (.leaf 6644225522766443255228667272612346676326223411417049115114160491140026301528200262015281014390213020144002130303446030561032110295600429003425604289034255044390345860415603358604685035540046860355410535203755805019036559062130396300621203962906612040566066110405650694504126206944041261082550435910882704459208314043650083150436510932504551809324045517104640474711046304747010865048156108660481571141604911411415049113119360500591193505005812038050161120390501621246505070912466050710125270510801252605107912994051668124240506681317605216713177052168134760525921347705259314003053574140020535731454505458414013053584155800565491557905654815829057114158300571151599705745315996057452161690576251565705662616250058035167550590351743606042000000000000180840616231808506162418213062138182120621371848706258018488062581193270645921932606459119440065125190290641251959906544319600065444196910655351969006553420042066468200410664672112006915220711068153222170714952221807149622245071523222460715242271507254322714072542228800731472288107314823686074597232290735982384507519523846075196242540761462379607514624726077166242740761662492007746225361078462250320775742458407657425856079522258550795212641808111300000000000266230814252662408142627228082594267930815952731708314927318083150278910843972789208439827938084444279370844432814308511928564086120289840871252856908612529455088193298530891942974608861529747088616))
 (.node 1 (.leaf 3002508949530024089494300390895093003808950832643096496322890954963282409716432825097165328370971773320009817733395098524330350975253341009853933411098540343951014743439410147334941103188349401031873507310348935072103488362731071673659610816836488107563368071085643656110813336560108132366821084393701910944036920109169369211091703772711150438041112504388301151723883111517339264116454395961174543962411748200000000000407741211524077512115340964121502409631215014100612154441007121545410201215584133412255841503123404411841224044312712852743128128528434501295574372713055843949131498439481314974401113156044296132560445971335814459813358245348136461453491364624594813854946195139549473131443834753714538347706146329477051463284816014835247947147352490361524274884615142749919157391497361563905128316436051474165360514291652255143016522652438170400522591693995278317242352623171423534511764495345017644854124180408539421794085423918123354240181234546171832275461818322855022185228548231842285572718840155726188400558261892115582718921256066190264560651902635622019123256035190233564241922445623319124556434192254562421912545676319420956575193209570681954175706719541657201196261570061952615841520327358263202273585312042305837120322958691205229585302042296054521541160546215412612692194066127021940761310219603613092196026217822425462370225253627372272456291622824563155229427633332304276355923163763722232637)
 (.leaf 6429823640364297236402645282376376452723763665035241238651842422386519024224465189242243654312436466556324464566443255228665062562286676326223400000000000002620152810026101528001440021303014410213040321102956003210029559041560335860000000000004289034255042880342540468603554104395034542050190365590502003656006212039629057980386290661104056506149039566069440412610694304126008315043651077590426520882704459208828044593093240455170875204451710463047470110620484691086604815710867048158114150491131141404911211935050058119340500571203905016212040050163124240506681242305066712466050710124670507111252605107911955050078131770521681261605116913477052593134780525941400205357314001053572140130535841401405358515579056548155780565471565705662615658056627158300571151583105711615996057452154830564521675505903500000000000180850616241808606162518212062137177750611371848806258118489062582190290641251862106312619326064591193250645901960006544419601065445196900655342010706653320041066467204560674682071106815320712068154222180714962177007049722246071524217970705242271407254222264071542228810731482288207314923229073598232300735992379607514623797075147238460751960000000000024274076166238150751652458407657424585076575253610784622579607946225855079521258540795202662408142627061082427267930815950000000000027318083150273190831512789208439828311085398279370844432793608444228564086120285650861212856908612528568086124)))
 (.node 2 (.node 1 (.leaf 2974708861629748088617300240894943002308949330038089508296380885073228909549631926094496328250971653282609716633035097525330360975263320009817733562099177334110985403376909954134394101473340501004723494010318735272104186350721034883474410248836560108132362381071323659610816836597108169368071085643680810856537019109440373471104413804111250438040112503388311151733914711617339596117454399321184554077512115340776121154410071215454100812154641184122404408701214044133412255841653123558431281285284312912852943727130558440091315584394813149744232132496442961325604457613356044598133582445991335834534913646245350136463461951395494644414055047537145383477601463834770514632847923147328479471473524794814735348846151427486471504264973615639049555155389514301652265124116422751474165360516661663605225916939952258169398526231714235246117042353450176448536171774475394217940853758178408542401812345443018223454618183228546191832295572618840055725188399560351902335603619023456065190263560641902625623319124556048190246562421912545605619025456575193209563891922095700619526156815194261570671954165687519441558263202273581082012745853020422958371203229605462154126073621641361270219407614492204066130921960200000000000623702252536236922525262916228245630962292456333323042700000000000637222326376388423363764297236402644572374026452723763664368236635651842422386533124323865189242243653362432436556324464565562244644)
 (.leaf 6650625622866562257229298530891943025409019500261015280002600152790144102130401442021305032100295590296802855804288034254042870342530439503454204112033542050200365600502103656105798038629057990386300614903956606150039567069430412600694204125907759042652077600426530875204451700000000000088280445930825804359410867048158108680481591106204846911644049468114140491121141304911111934050057113580490561195505007811954050077120400501631204105016412423050667124220506661246705071112468050712134780525941347905259514001053572140000535711401405358514547054586154830564521548205645115578056547155770565461565805662715132055628158310571161531005611718086061625176420606261848906258218044061583186210631261862206312719325064590193240645891960106544519602065446201070665332010606653220456067468208720684672071206815420713068155217700704972177107049821797070524217980705252226407154221814070541232300735992323107360023797075147233360741472381507516523353074164245850765752412607557525796079462262230804622585407952025853079519270610824272706208242827319083151273200831522793608444227935084441283110853982873108639828565086121289800871212856808612428567086123297480886172974908861830023089493300220894923192609449631559093495328260971663282709716733036097526330370975273356209917733916100177340501004723404910047134744102488347431024873527210418635271104185362381071323623710713136597108169369211091703680810856536809108566))
 (.node 1 (.leaf 3734711044137665111442380401125033835211350339147116173391481161744077612115440450120154408701214044055112040341008121546410091215474165312355841966124559431291285294313012853044009131558440081315574423213249600000000000445761335604485913456044599133583446001335844535013646345066135463464441405504668314155047760146383479781473834792314732847922147327479481473534773014635348647150426484421494264955515538949372154389512411642275124216422851666166360518501673605225816939852436170398524611704235228316942353617177447537961784465443018223454431182235546191832295482418422955725188399555221873985603619023455849189234560481902465586118924656056190254558691892545638919220956198191210568151942615662719326156875194415566851934145810820127457950200275583712032295821920222960736216413605482154146144922040661450220407623692252526255922625263096229245632752302456388423363764046234637643682366356436723663464457237402644562374016533624324365479244243655622446446568524564466562257229665632572302963808850700000000000302540901953064909119500260015279001290142790144202130501443021306029680285580296902855904112033542041110335410428703425304286034252050210365610502203656205799038630058000386310615003956705735038566069420412590000000000007760042653077610426540825804359408259043595108680481591086904816011413049111114120491101164404946811643049467119540500771137804907612041050164120420501651242205066612421050665)
 (.leaf 1246805071200000000000134790525951348005259614000053571139990535701454705458614016053587151320556281513305562915482056451154810564501557705654615576056545176420606261764306062718044061583180450615841862206312718623063128193240645891932306458819602065446200200664462010606653219688065532207130681552071406815620872068467208710684662177107049821330069498217980705252179907052621814070541218150705422323107360023232073601233360741472333707414824126075575241250755742585307951925418078519262230804622666108146327062082428270630824292732008315227321083153279350844412835308544028567086123289810871222873108639829143087398289800871212898108712229749088618293510876183002208949200000000000315590934953118509249432827097167328280971683303709752733038097528339161001773426410117834049100471340481004703474310248734408101487352711041853527010418436237107131362361071303680910856636491107566369211091703692210917137665111442376661114433835211350338674114503391481161743946511717540450120154404511201554055112040340218119402410091215474101012154841966124559422681255594313012853043424129531440081315574429213255644600133584446011335854485913456045146135561450661354634478013446346683141550469331425504773014635347731146354479221473270000000000047978147383481921483844844214942648441149425493721543894918915338951242164228512431642295185016736052043168361522831694235209916842352436170398524351703975379617844653979179445)))))))))))
 (.node 16 (.node 8 (.node 4 (.node 2 (.node 1 (.leaf 5443118223554432182236548241842295502318522955522187398555211873975584918923455850189235558611892465586218924755869189254556771882545619819121056199191211566271932615662819326256685193414566841934135795020027557787199275582192022295806320122960548215414603622144156145022040761451220408625592262526274422725263275230245632742302446404623463764208235636644562374016429523640065479244243656112452436568524564465800246644665632572306656425723123353074164228960731633064909119531036092195001290142790000000000001443021306014440213070296902855902746027559041110335410411003354004286034252042850342510502203656205023036563057350385660573403856505800038631058010386320776104265407213041654082590435950770104259410869048160108700481611137804907611377049075114120491101141104910911643049467116420494661204205016512043050166124210506651242005066413480052596134810525971399905357013453052569140160535871401705358815133055629145910546301548105645014954055450155760565451504805554417643060627171740596271804506158417601060585186230631281862406312919323064588193220645871968806553219687065531200200664462002106644720714068156207150681572087106846620870068465213300694982090306849821799070526213570695252181507054221375069543232320736012323307360223337074148228820731492412507557424124075573254180785192541707851826661081463270970824632706308242927494083430273210831532732208315428353085440283520854392898108712229383088121)
 (.leaf 2914308739829142087397293510876182935208761931185092494311840924933303809752833039097529340481004703439010146934264101178342651011793440810148734407101486352701041843526910418336236107130365581081303649110756636492107567369221091713692310917237666111443376671114443867411450338673114502394651171753946611717640218119402402171194014045112015540452120156410101215484069512054942268125559425701265594342412953143425129532442921325564429313255744601133585448851345864478013446344497133463451461355614542913656246933142550471871435504773114635447732146355481921483844840014938448441149425482331484255124316422951244164230520431683610000000000052099168423519131674235243517039752597171397539791794455416118044554432182236546261832365552118739755301186396556771882545547418725455850189235556581882355586218924755670188247561991912115601319021156628193262564431922635668419341356499192413577871992755778819927658063201229579042002296036221441560172213416614512204086164022140862744227252627432272516327423024463448231244642082356366420723563564295236400642942363996561124524365733246243658002466446591224764466564257231666152582323103609219531417093195014440213070144502130802746027559000000000000411003354004109033539042850342510428403425005023036563050240365640573403856505358037564058010386320542303763207213041654067000406540770104259407702042595108700481611087104816211377049075113760490741141104910911985050108))
 (.node 1 (.leaf 1164204946611641049465120430501661261405116712420050664118390496631345305256913452052568140170535881401805358914954055450149530554491504805554415047055543171740596271717505962818624063129186250631301932206458718914063586196870655311926606453120021066447204350674472071506815720716068158208700684652086906846420903068498204870674992135706952520931068526213750695432137606954422882073149228830731502323307360223234073603241240755732412307557225417078518254160785172709708246327527083463273220831542775208415427494083430279240844302835208543928351085438291420873972954408839729352087619289470866192938308812129382088120311840924933080109149231417093195317920941953303909752933040097530342651011793460310217934390101469343891014683440710148634063100485352691041833559810518236492107567364931075683655810813036881109130369231091723692410917337667111444379821124453867311450238994115502402171194014021611940040452120156404531201574069512054940696120550425701265594226912556043425129532434261295334429313255744573133557444971334634449813346444885134586000000000004542913656245701137562471871435504742014455047732146355477331463564840014938448605150384512441642305105116323151913167423517281664225259717139752757172397541611804450000000000054626183236546271832375530118639655300186395554741872545525818625555658188235556591882365567018824755671188248560131902115582718921256443192263562511912635649919241356307191413)
 (.leaf 5778819927657789199277579042002295774119922960172213416601732134176164022140861836222409627432272516292222825163448231244636142322436420723563564367236634642942363996445323739865733246243658482472436591224764466010248643666152582326661625823301445021308014460213090410903353904108033538042840342500000000000005358037564053590375650542303763205424037633067000406540623703965407702042595077030425961087104816210872048163113760490741137504907311641049465116400494641183904966311255048662126140511671261505116813452052568134510525671401805358914019053590149530554491495205544815047055543155730565421717505962817176059629186250631301820606213118914063586189130635851926606453119265064530204350674472043606744820487067499204880675002071606815820717068159208690684642086806846320931068526209320685272137606954420949068544228830731502288407315123234073603232350736042412307557224581076571254160785172541507851627527083463279570844632775208415427753084155279240844302834308543028351085438000000000002894708661928948086620293820881202938108811929544088397299400893983080109149230417090491317920941953215309519433040097530334020985313406310048533712099484343891014683438810146735598105182355971051813649310756836169106569368811091303721511013036924109173369251091743798211244538295113446389941155023931211650240216119400402151193994045312015740780121158406961205504101212155042269125560419671245604342612953343427129534)))
 (.node 2 (.node 1 (.leaf 4449813346444217132464445731335574485613455745701137562457001375614742014455047421144551477331463564751114535748605150384486061503855105116323151052163232517281664225153516542152757172397529161733975462718323754832184237552581862555525918625655300186395552991863945565918823655457187237556711882485546818724855827189212556361882135625119126356064190262563071914135612119041357741199229577421992305778919927757617198277601732134175998021241761836222409616412214096292222825163102229251636142322436377723324364453237398644522373976584824724300000000000660102486436600924864266616258233666552592346436723663400000000000014460213090123402031004108033538041070335370535903756505360037566054240376330000000000006237039654058240386550770304259607704042597108720481631087304816411255048662112540486611137504907311374049072116400494641105704846412615051168126160511691345105256713450052566140190535901455105459014952055448149510554471557305654215572056541171760596291717705963018206062131182070621321891306358518492062585192650645301926406452920436067448204370674492048806750020489067501207170681592030306715920868068463208670684622093206852720515067527209490685442095006854522884073151224370721522323507360422777072605245810765712458007657025415078516249740775162775308415527754084156279570844632837608546328343085430283420854292894808662028534085621293810881192938008811829940089398299410893993041709049130416090490)
 (.leaf 3215309519432152095193334020985313340309853233712099484333550984843438810146700000000000361691065693616810656836925109174372601101753721511013037542111131382951134463829611344739312116502393111165014021511939900000000000407801211584109612215841012121550410111215494196712456042270125561434271295344342812953544217132464442161324634485613455745142135557457001375614595913856047421144551476411455514751114535747512145358486061503854880415138551052163232510531632335153516542151344164421529161733975307017439654832184237548331842385525918625655050185256552991863945529818639355468187248554691872495563618821355433187213560641902625606319026156121190413559311894135761719827757618198278577421992305757019823059980212417597962114186164122140961642221410631022292516328123025163777233243639392342426445223739764451237396660092486426600824864166655259234666562592350123402031001235020311041070335370410603353605360037566050250365650582403865505825038656077040425970715504159610873048164108740481651105704846410458047465112540486611065404766111374049072107810480721261605116912617051170134500525661289105156514551054590145520545911495105544714408054447155720565411557105654017177059630166790586301820706213218208062133184920625851804606158519264064529192630645282030306715919889066160204370674492043806745020489067501200750665012051506752720102066528208670684622129406946220950068545205340675462243707215222438072153))
 (.node 1 (.leaf 2277707260522778072606245800765702457907656924974077516249730775152775408415627755084157283420854292834108542828376085463000000000002853408562128535085622293800881182937908811729941089399299420894003041609049030019089489321520951933250509619333355098484329930974833340309853233404098533361681065683581410556837260110175375871111763754211113137852112131382961134473861911444839311116501396431175014101112154941325122549410961221584141212315942270125561425711265604342812953543704130535442161324634393513146345142135557454241365574595913856046206139560475121453584773614635947641145551478641465514880415138548805151386510531632335105416323451344164421511491634205307017439653233175396548331842385503218523855050185256550491852555529818639355297186392554331872135521718621455469187249552521862495593118941355738188412560631902615587618926157570198230575711982315761819827857619198279597962114185979721141961642221410616432214116328123025163280230250644512373966445023739566008248641660072486406665625923500000000000012350203110123602031204106033536041050335350502503656505024036564058250386560582603865707155041596066420405961045804746509851046464106540476611065504766210781048072101720470711087404816510267047166126170511701261805117112891051565128900515641440805444714407054446145520545911509505559116679058630161740576301804606158517601060585182080621331777206113419263064528192620645271988906616019890066161)
 (.leaf 2007506650119657065501201020665281968406552820438067450204390674512053406754620535067547212940694622129306946122438072153224390721542277807260622779072607245790765692411907556824973077515245250765152775508415728181085157283410854282834008542728535085622285360856232937908811729378088116299420894003034009040030019089489300180894883250509619332506096194329930974833299209748233404098533334050985343581410556835815105569375871111763758811117737852112131378511121303861911444838940115448396431175013997811850141325122549413261225504141212315941730124160425711265604286412756043704130535437051305364393513146300000000000454241365574569613755746206139560462071395614773614635947954147359478641465514807614755048805151386489961523875105416323450857162235511491634205115016342153233175396533981763965503218523855033185239550491852555485018425555217186214552181862155525218624955043185249557381884125553618741255876189261558751892605757119823157381197232576191982795742919728059797211419597982114206164322141100000000000632802302506345423125064450237395644492373946600724864066006248639012360203120123702031304105033535043870345340502403656404710035565058260386570582703865806642040596066430405970985104646409273045464101720470711017104707010267047166102680471671065504766210656047663126180511711318105217212890051564128890515631440705444614406054445150950555911509605559216174057630156610566301760106058517602060586))))
 (.node 4 (.node 2 (.node 1 (.leaf 1777206113417773061135196570655011923706450219684065528192620645271989006616119891066162204390674512044006745220535067547201210665472129306946121292069460224390721542244007215522779072607232390736082411907556823656074567245250765152452407651428181085157281820851582834008542728760086427285360856232853708562429378088116293770881153001808948829618088487303400904003034109040132506096194325070961953299209748232628096481334050985343376309953535815105569358161055703758811117737898112177378511121303816411313038940115448392591164493997811850140317119501413261225504164512355041730124160420391251614286412756042865127561437051305364398713153645696137557459561385574620713956146455140561479541473594795514736048076147550482881485505085716223550858162236511501634215095016242153398176396535651773955485018425554645183255550331852395524318624055043185249548451842505521818621555219186216555361874125531618641155875189260556831882605738119723257173196233574291972805743019728159798211420597992114216345423125063621232250644492373946428923639466006248639660862496394899615238749187153387012370203130123802031404387034534043860345330471003556504711035566058270386580582803865906643040597066440405980927304546408701044464101710470700958204606910268047167102690471681065604766310050046664128890515631288805156213181052172131820521731440605444513873053444150960555921562405659315661056630151350556311760206058617603060587)
 (.leaf 1777306113517774061136192620645271926106452619891066162194770651622012106654720120066546204400674522044106745321292069460212910694592244007215522441072156232390736082324007360923656074567231970735662452407651424065075514281820851582860208615828537085624281180846242876008642728759086426293770881152937608811429618088487296170884863034109040130342090402326280964813227309548033763099535337640995363581610557035485104571381641131303847311413039259116449395921174504031711950140647120501416451235504195712455042039125161423381261614286512756142866127562439871315364398813153745956138557462031395574645514056146456140562479551473604816814836048288148550000000000004918715338749188153388508581622365085916223750950162421509491624205356517739553745178395546451832555445118225555219186216554361872165531618641155107185411556831882605548018726057173196233571741962345743019728157431197282597992114215980021142263621232250637842332506428923639464288236393660862496396608524963832507096195325080961960123802031401239020315043860345330410303353304711035566047120355670582803865905829038660066440405980618103959808701044464087020444650958204606909581046068100500466641005104666510269047168096810461681288805156212887051561131820521731318305217413873053444133270524431513505563114591054630156240565931562505659417603060587171340595871777406113617775061137192610645261885306352519477065162194780651632012006654619702065546))
 (.node 1 (.leaf 2044106745320442067454212910694592129006945822441072156224420721572319707356622738072566232400736092324107361024065075514240640755132860208615829017087158287590864262875808642529376088114289730871142961708848629616088485303420904023034309040332273095480322720954793250809619632156095197337640995363411410053635485104571351561035723847311413038787115129395921174503959311745140647120501409631215014195712455041956124549423381261614263812716242866127562425741265634398813153744274132538462031395574645014055646456140562464571405634816814836048377149361508591622375086016223850949162420507431614205374517839553929179395551071854115490018441155436187216554371872175548018726055263186260571741962345697919523457431197282574321972835980021142259801211423637842332506378323324964288236393644472373926608524963866155250638491881533884918915338901239020315012400203160410303353304102033532047120355670442103456805829038660058300386610618103959806182039599087020444650870304446609581046068095800460670968104616809104045168100510466650947304566612887051561128860515601318305217413184052175133270524431276905144314591054630145900546291562505659415099055595171340595871713505958817775061137173330601371885306352518852063524194780651631947906516419702065546192810645462044206745420443067455224420721572244307215822738072566222880715662324107361023700074611240640755132360207451328758086425287570864242897308711428972087113)
 (.leaf 2901708715829421088159296160884852961508848430343090403303440904043227209547931908094478341141005363445710153635156103572348291025733878711512939104116130395931174513992911845240963121501412761225004195612454942258125549425741265634286712756342638127162426391271634427413253844275132539464501405564644914055546457140563462101395644837714936148582150361507431614205074416142150860162238000000000005392917939554111180395549001844115469418341155263186260550541852605543718721755438187218569791952345678819423457432197283576231982835980121142359802211424637832332496394523424864447237392000000000006615525063866219251638321560951973215709519849189153389000000000000124002031601241020317041020335320410103353104421034568044220345690583003866105831038662061820395990618303960008703044466081310434670910404516800000000000094730456660947404566709580046067095790460661276905144312768051442128860515601288505155913184052175131850521761459005462914589054628150990555951455505459417135059588166380585891733306013717332060136188520635241843106252419281064546188730635451947906516419480065165204430674552086106845622288071566218390705662244307215822892073159236020745132360107451223700074611237010746122875708642400000000000289720871132897108711229421088159298180891592961508848429614088483303440904043034509040531908094478315420934783445710153634115100537348291025733449410157339104116130000000000003992911845239930118453)))
 (.node 2 (.node 1 (.leaf 4127612250041594123499422581255494255912654842639127163426401271644286712756343163128563462101395644645814056446449140555466881415554858215036148781151362507441614215074516142254111180395542911813955469418341154500182411550541852605485618426155438187218554391872195678819423456600193234576231982835779619928459802211424598032114256394523424863944234247662192516380000000000032157095198321580951990124102031701242020318041010335310384403253204422034569044230345700583103866205832038663061830396000577003860108131043467000000000000947404566708903044668095790460660957804606512768051442127670514411288505155912884051558131850521761318605217714555054594140240535951458905462814056053627166380585891663905859017332060136168550591351843106252418430062523194800651651948106516620861068456208620684572183907056621398069566228920731592289307316023601074512231430735122370107461224163075612289710871120000000000029614088483292160874832981808915930218090159303450904053073509140531542093478311690924783215809519931797094200341151005373411610053834494101573341511005733993011845339931118454415941234994159312349842559126548425581265474264012716442934128165431631285634286812756446458140564466961415634668814155546937142554487811513624897215236350745161422507461614235450018241154307181411548561842615465118326155439187219556431882205660019323456601193235577961992845779719928559803211425598042114266394423424763943234246)
 (.leaf 124202031801243020319038440325320000000000004423034570000000000000577003860105771038602058320386630583303866408903044668089040446690957804606510166047065127670514411219605044012884051558128830515571318605217700000000000140240535951402505359614056053627140550536261663905859016640058591168550591351634905813418430062523184290625221948106516619482065167208620684572086306845821398069566209710685662289307316022894073161231430735122314207351124163075612246230766132921608748329215087482302180901593021709015830735091405311230924053116909247830787091478317970942003179809420134116100538341171005393415110057333801099573399311184543993211845541593123498419041244974255812654742557126546428681275644286912756542934128165000000000004669614156346946142563469371425544719214355548972152363491641533645074616142350544160423543071814115430618141054651183261546521832625564318822055644188221566011932355641519223557797199285579612002865980421142659990212427639432342466394223424501243020319000000000000577103860205772038603058330386640000000000008904044669089050446701016604706510165047064121960504400000000000012883051557128820515561402505359614026053597140550536261405405362516349058134163480581331664005859116641058592184290625221798306152219482065167194830651682086306845821290069458209710685662055306756522894073161228950731622314207351123141073510246230766132507107761329215087482296120884813021709015830613091159))
 (.node 1 (.leaf 3112309240531124092406317980942013142309320133801099573338020995743411710053934118100540399321184554027211945641904124497419031244964255712654642556126545428691275654257612656546946142563472001435634719214355547425144555491641533644934715436450544160423505451604245430618141054126180410546521832625445818226255644188221554411872215641519223556416192236579612002865796220028759990212427601842134286394223424563941234244307870914783040509047905772038603057730386040890504467008906044671101650470641016404706312882051556134390525551402605359713481052597140540536251405305362416348058133158480571331664105859217140059593179830615221798206152119483065168190730641692055306756520552067564212900694582173007045722895073162228960731632314107351022682072510250710776132551307861429612088481300100894803061309115930614091160311240924063112509240731423093201310430922023380209957433445098574341181005403376809954040272119456406051204574190312449642205125496425561265454255512654442576126565422741255654720014356347199143562474251445554764514555549347154364493481543655054516042450348159424541261804105394417941054458182262000000000005544118722155224186221564161922365622519123757962200287000000000006018421342860185213429639412342446394023424330405090479300100894800577303860405398037604089060446710890704467210164047063101630470621343905255513438052554134810525971348205259814053053624140520536231584805713315326056133)
 (.leaf 1714005959317141059594179820615211798106152019073064169186650631702055206756420551067563217300704572217907145722682072510226810725092551307861425948079614306140911603100209216131043092202310440922033112509240731126092408334450985743308409757433768099540337690995414060512045700000000000422051254964250612649542274125565422751255664255512654442848127544471991435624743314456347645145555478681465554934815436549531155365503481594245014815842453944179410537601784105522418622155225186222562251912375604019023860185213429603762144296394023424363939234242228960731632244907216430010089480000000000000539803760405399037605089070446720890804467310163047062101620470611343805255413437052553134820525981348305259914052053623140510536221714105959417610060594179810615201798006151918665063170186660631712055106756320136066562221790714572262907245722449072164220000711632268107250922231071509259480796142594907961531002092161313830931613104409220331045092204311260924083112709240933084097574330850975753376909954100000000000422751255664197312456642506126495427991274954284812754442847127543474331445634720114356447868146555480791475554953115536549532155366501481584245014915842553760178410537591784095522518622255226186223560401902385604119023960376214429605642154306393923424264103235242153260561331532505613205399037605054000376060890804467308338043674101620470611016104706013437052553134360525521348305259913484052600)))))
 (.node 8 (.node 4 (.node 2 (.node 1 (.leaf 1405105362214050053621176100605941761106059517980061519175340605181866606317118246062171201360665622013706656322000071163215590701642223107150922230071508226290724572263007245825949079615263760806153112709240931128092410313830931613138409316233085097575334460985754197312456641662123567427991274954309612849642847127543428461275424720114356447435144565480791475550000000000049532155366497121563665014915842549953157425537591784095375817840855226186223552271862245604119023955854189239605642154306075421643164103235242642652362421532505613215324056131310450922043104609220505400037606050670366070833804367408339043675101610470601076904806013436052552134350525511348405260013485052601140500536211404905362017534060518170640595171761106059517612060596182460621710000000000020137066563201380665642155907016421132069164222300715082178107050822630072458226310724592637608061526377080616310460922053104709220631128092410311290924113138409316231760094163334460985753344709857641662123567413431225674284612754242845127541430961284964338912949647435144565472031435664971215636649713156367499531574254977115642553758178408535771774075522718622455018185224558541892395585518924060754216431607552164326426523624264425237241153240561311584505713005067036607047510356060833904367507783042676107690480601076804805913435052551128760515501348505260113486052602140490536201404805361917064059517170630595161761206059617613060597)
 (.leaf 2013806656419720065564211320691642113306916521781070508217800705072263107245923091073460263770806162637808061731129092411311300924123176009416331761094164334470985763308609757641343122567413441225684284512754142844127540433891294964366513049647203143566472041435674971315636749896157368497711564254959115542553577177407534081764065501818522455019185225558551892405566318824060755216432609402174326442523724164584238241158450571301584405712931047092206306610912070475103560604750035605077830426760778404267710768048059113600490581287605155012875051549134860526021348705260317063059516165640585151761306059717145059598197200655641929906456421133069165211340691662178007050721779070506230910734602309007345926378080617268160816183066109120730662091208311300924123074209141231761094164317620941653308609757633087097577413441225684134512256942844127540431391285394366513049643946131495472041435674720514356849591155425494081544254989615736849897157369534081764065340717640555019185225550201852265566318824055461187241609402174320000000000064584238241645832382401584405712915843057128047500356050474903560407784042677077850426781136004905811359049057128750515491287405154813487052603134880526041584305712815842057127165640585151656305851417145059598171460595991929906456419300064565211340691662072406816621779070506213380695062309007345923089073458268160816182681708161930662091208302680902093074209141230743091413))
 (.node 1 (.leaf 3176209416531763094166330870975773344809857741345122569413461225704313912853943432129539439461314954423113249547205143568474381445684940815442549225153425498971573695009315836953407176405532421754055502018522654821184226554611872415524518624264583238240647382392400474903560404456034603077850426780778604267911359049057113580490561287405154812873051547134880526041348905260515842057127158410571261656305851416562058513171460595991714705960019300064565188930635652072406816620310067166213380695062091206850723089073458230880734572681708161927254082620302680902093026909021030743091413307440914143176309416631764094167334480985773344909857841346122570413471225714343212953943708130539442311324950000000000047438144568474391445694922515342549034152425500931583695029315936953242175405532411754045482118422654822184227647382392406488824024004456034603000000000000778604267907787042680113580490561135704905512873051547128720515461348905260513490052606158410571261584005712516562058513165610585121714705960017148059601188930635651847206256520310067166203110671672091206850720913068508230880734572354507445627254082620272550826213026909021029870089211307440914143074509141531764094167321260951673344909857833450098579413471225714103412157243708130539439901315394743914456947659145569490341524254903315242450293159369504901603695324117540453240175403548221842275482318422864888240240650372412400778704268007788042681)
 (.leaf 1135704905511356049054128720515461287105154513490052606134910526071584005712515839057124165610585121605605751217148059601166500586011847206256518471062564203110671672031206716820913068508209140685092354507445624007075456272550826212768508362129870089211298710892123074509141530355090415321260951673247909616733450098579334510985804103412157240719120573439901315394427513253947659145569478821465694903315242448843151424504901603695069216136953240175403532391754025482318422855023185229650372412406518624224007788042681077890426821135604905411355049053128710515451287005154413491052607134920526081583905712415838057123160560575121605505751116650058601166510586021847106256418470062563203120671682031306716920914068509204970675092400707545624006075455276850836212811508462129871089212294740882123035509041530356090416324790961673282809716833451098580338090995814071912057340720120574442751325394455613354047882146569480931475694884315142448645150424506921613695069316137053239175402534031764015502318522955024185230651862422406518524223907789042682072410416821135504905311354049052128700515441286905154313492052608134930526091583805712315837057122160550575111605405751016651058602166520586031847006256318469062562203130671692031406717020497067509200830665092400607545524464076454281150846212811608462229474088212294750882133035609041629958089416328280971683319109816833809099581338100995824072012057440721120575)))
 (.node 2 (.node 1 (.leaf 4455613354044840134541480931475694809414757048645150424484401494245069316137050899162370534031764015340217640055024185230552331862306518524223965332243239072410416820000000000011354049052119280500511286905154312298050542134930526091349405261015837057122158360571211605405751016053057509166520586031665305860418469062562184680625612008306650919664065508203140671702031506717124464076454244630764532811608462228117084623294750882132907208721329958089416299590894173319109816833554099169338100995823416010058240721120575403911195754484013454100000000000480941475704830514857048440149424482321484245089916237050900162371534021764005340117639955233186230552341862316533224323965331243238119280500511192705005012298050542122970505411349405261013495052611158360571211583505712016053057509160520575081665305860416654058605184680625611888806356019664065508196630655072031506717119901066172244630764532446207645228117084623281180846242907208721329073087214299590894172996008941833554099169339081001693416010058234503101582403911195754039211957648232148424482331484254830514857048306148571509001623715090116237253401176399534001763985523418623155451187231653312432386547424423811927050050119260500491229705054112296050540134950526111293805161215835057120158340571191605205750816051057507166540586051665505860618888063560188870635591966306550719662065506199010661721990206617324462076452249090774512811808462428119084625)
 (.leaf 2907308721429074087215299600894182996108941933908100169342561011703450310158234837102581403921195764005311857648233148425480201474254830614857148507149571509011623725110216337353400176398535671773975545118723155452187232654742442386560624523811926050049119250500481229605054011715049539158340571191531105611816051057507160500575061665505860616656058607188870635591846606255919662065506196610655051990206617319903066174249090774512535007845128119084625276900836262907408721528659086215299610894190000000000034256101170342571011713483710258135165103581400531185764005411857748020147425478031464264850714957148709150571511021633735129616437353567177397537461783965545218723255453187233656062452386560724523911715049539111320485391192505004811924050047153110561181531005611716050057506160490575051665605860716657058608184660625591846506255819661065505192400645051990306617419490065175253500784512578507945127690083626276910836272865908621528660086216342571011713425810117235165103581354951045814005411857740055118578478031464264780414642748709150571489041515715129616437351487165373537461783965393017939655453187233554541872346560724523965729246239111320485391113104853811924050047119230500461531005611715309056116160490575051604805750416657058608166580586091846506255818464062557192400645051923906450419490065175000000000002578507945126211080450276910836272769208362828660086216286610862173425810117234259101173))
 (.node 1 (.leaf 3549510458135827105581400551185783972111757947804146427475811454274890415157149092152571514871653735167916637353930179396541121803965545418723455455187235657292462396573024624011131048538111300485371192305004611922050045153090561161476905511616048057504160470575031665805860916659058610184640625571888506355719239064504192380645032621108045026647081449276920836282769308362928661086217000000000003425910117334260101174358271055813618010658039721117579397221175804758114542747357144427490921525714928215357151679166373518631673735411218039654291181395554551872355545618723665730246240658462472411113004853711129048536119220500451192105004414769055116147680551151604705750316046057502166590586101666005861118885063557188840635561923806450319237064502266470814492708308244927693083629272640826303426010117434598102174361801065803650510758039722117580397231175814735714442747119143427492821535714946315457151863167373520491683735429118139554483182394554561872365545718723765846247241658472472421112904853611128048535119210500441192005004314768055115147670551141604605750216045057501166600586111615605761218884063556188830635551923706450219236064501270830824492708408245027264082630272650826313459810217434599102175365051075803682410858139723117581400581185814711914342746862142427494631545714964115557152049168373522321693725448318239454482182393554571872375545818723865847247242659572482421192005004312489051042)
 (.leaf 1476705511414766055113160450575011604405750016156057612161570576131888306355518882063554192360645011923506450027084082450275150834512726508263127266082632345991021753460010217636824108581371591095804005811858140059118582468621424274661214142749641155571496401555705223216937252410170372544821823935467618339355458187238552411862386595724824265958248243124890510421305005204114766055113142310541131604405750016043057499161570576131615805761418882063554188810635531923506450018827063499272660826322683008163227515083451275160834523460010217634601102177371591095803748611058040059118582403991195834661214142746611141426496401555704981715657052410170372525741713725467618339354881184392552411862385524218623965958248243000000000001305005204113618053040142310541131369105311316043057499160420574981615805761416159057615188270634991882606349818881063553184600625532683008163226394080633275160834522794708445334601102177346021021783748611058037487110581403991195834040011958446611141426466101414254981715657050003157570525741713720000000000054881184392550881853925524218623955243186240136180530401415705403913691053113136900531121604205749816041057497161590576151616005761618460062553184590625521882606349818825063497263940806332596707963327947084453283670854543460210217834603102179374871105813748811058240400119584407301205844661014142546859142424500031575705020215857055088185392552971863925524318624055244186241))))
 (.node 4 (.node 2 (.node 1 (.leaf 1369005311213120052111141570540391469305504016160057616161610576171845906255218458062551188250634971882406349625967079633259680796342836708545428788086455346031021793493210317937488110582371621095834073012058440731120585468591424244685814242350202158570504001595705524418624155245186242552971863925551618739213120052111125580511111469305504015232056039161610576171564905661818458062551188780635501882406349618404062497259680796342553307863428788086455291970874563493210317935266104180371621095833716310958440731120585410471215854685814242347115143423504001595705040115957155245186242552461862435551618739255515187391125580511111255705111015232056039152310560381564905661815650056619184040624971795806149718878063550188770635492553307863425534078635291970874560000000000035266104180355971051813716310958437491110585410471215854104812158647115143423471141434225040115957150402159572552461862435503718524355515187391557171883911255705111011987050110152310560381523005603715650056619151230556191795806149717514060498188770635491887606354825534078635255350786363559710518135936106181374911105853749211058641048121586407321205864711414342247113143421504021595725040315957355037185243550381852445571718839155716188390119870501101198605010915123055619145800546191523005603715229056036175140604981751506049918876063548188750635472553507863625094077636359361061813628610718037492110586374931105874073212058640733120587)
 (.leaf 4711314342146856142421504031595730000000000055038185244548391842445571618839055907189389119860501091198505010814580054619140480536191522905603615228056035175150604991704605949918875063547188740635462509407763625095077637362861071803660810818037493110587374941105884073312058740403119587468561424214685514242054839184244548401842455590718938955906189388119850501081198405010714048053619140470536181522805603515227056034170460594991654805849918874063546188730635452509507763725096077638366081081803693010917937494110588374951105894040311958740404119588468551424204660514142054840184245550401852465590618938856095190387119840501071140804910614047053618135020526181522705603414686055033165480584991654705849818873063545188720635442509607763824649076639369301091793726311017837495110589371681095894040411958840065118588466051414204636214042055040185246548411842465609519038756281191387114080491061140704910513502052618135010526171468605503314685055032165470584981604105749718872063544184510625442464907663924650076640371681095893716910959037263110178375891111784006511858840066118589463621404204636314042154841184246548421842475628119138756280191386114070491051081304810413501052617135000526161468505503214150054032160410574971604005749618451062544184500625432465007664024191075640371691095903683310859037589111178378981121774006611858940405119589463631404214610913942154842184247546371832475628019138656279191385))
 (.node 1 (.leaf 1081304810410812048103135000526161349905261514150054032141490540311604005749615526056495184500625431800406154324191075640237290746403683310859036834108591378981121773821111317740405119589404061195904610913942146108139420546371832475463818324856279191385564701923841081204810310811048102134990526151349805261414149054031141480540301552605649514998055494180040615431800306154223729074640237280746393683410859136517107592382111131773852011417740406119590407361205904610813942045855138420546381832485484318424856470192384000000000001081104810210810048101134980526141294005161414148054030000000000001499805549414997055493180030615421755706054123728074639232700736393651710759236193106593385201141773883511517740736120590407371205914585513842045856138421548431842485484418424910810048101102020471011294005161412939051613149970554931499605549217557060541170870595402327007363923271073640361931065933619410659438835115177391511161774073712059140738120592458561384214559113742154844184249548451842501020204710110203047102129390516131293805161214996055492144520544911708705954016588058539232710736402327207364136194106594358411055953915111617739467117177407381205924040811959245591137421453131364225484518425054846184251102030471020961404610112938051612123670506111445205449114451054490165880585391608305753923272073641000000000003584110559535842105596394671171773946611717640408119592404091195934531313642245029135422)
 (.leaf 5484618425154642183252096140461010961304610012367050611123660506101445105449013919053490160830575391557105654035842105596355101045963946611717639796118176404091195934007011859345029135422450301354235464218325254643183253096130461000961204609912366050610123650506091391905349013920053491155710565401557005653935510104596355111045973979611817639797118177400701185934007111859445030135423447441344235464318325354644183254096120460990903504509912365050609117850496091392005349113375052491155700565391556905653835511104597000000000003979711817740135119177400711185944007211859544744134423447451344245464418325454451182255090350450990903404509811785049609117840496081337505249112817051491155690565381504205553840072118595397371175954013511917740136119178447451344244474613442554451182255544521822560903404509809033045097117840496081120104860812817051491122470504911504205553815041055537397371175953973811759640136119178404741201784474613442544464133425544521822565445318225709033045097090320450961120104860810601047608122470504911166604949015041055537144980545373973811759639406116596404741201784047512017944464133425441821324255445318225754263181257090320450960903104509510601047608106000476071166604949011084048491144980545371449705453639406116596390891155974047512017940476120180441821324254390013142554263181257542641812580903104509509030045094106000476070999304660711084048491104840474911449705453613965053536)))
 (.node 1 (.leaf 3908911559739090115598404761201804079712118143900131425436221304255426418125854088180258090300450940902904509309993046607099920466061048404749110485047492139650535361396405353539090115598390911155994079712118100000000000436221304254333312942554088180258539081792590902904509309028045092099920466060941304560610485047492098800464931396405353513963053534390911155993941011660043333129425430361284255390817925900000000000090280450920845604409209413045606088410446060988004649309881046494139630535341341805253439410116600394111166014303612842542742127425084560440920845504409108841044606082700436060988104649409882046495134180525341286105153539411116601000000000004274212742542741127424082700436060827104360708455044091078970430910988204649509883046496128610515351229105053542741127424427401274230789704309107343042091082710436070771404260709883046496098840464971229105053511711049535427401274234244312642307343042091068130410910771404260707167041608098840464970988504649811711049535111280485354244312642342442126422068130410910000000000007167041608071680416090988504649800000000000111280485351052804753542442126422421391254220716804160906655040609105280475351052704753442139125422421381254210665504060906656040610105270475340991904653342138125421418341244210665604061006194039611099190465330991804653241834124421415201234210619403961106195039612099180465320934004553341520123421412011224210619503961206196039613)
 (.leaf 934004553308767044532412011224214088812142206196039613057830386140876704453208196043532408881214224057012042205783038614054080376140819604353207639042532405701204224023811942205408037614050740366140763904253207090041531402381194223989911842205074036614047580356130709004153106577040531398991184223956411742204758035613047590356140657704053106576040530395641174223923711642204759035614047600356150657604053006575040529392371164220000000000004760035615047610356160657504052906574040528047610356160476203561706574040528065730405270476203561700000000000065730405270657204052606572040526061080395250610803952500000000000000000000000000000000000000000000000000000000000000000000000000000000000000000000000000000000000000000000000000000000000000000000000000000000000000000000000000000000000000000000000000000000000000000000000000000000000000000000000000000000000000000000000000000000000000000000000000000000000000000000000000000000000000000000000000000000000000000000000000000000000000000000000000000000000000000000000000000000000000000000000000000000000000000000000000000000000000000000000000000000000000000000000000000000000000000000000000000000000000000000000000000000000000000000000000000000000000000000000000000000000000000000000000000000000000000000000000000000000000000000000000000000000000000000000000000000000000000000000000000000000000000000000000000000000000000000000000000000000000000000000000000000000))))))

end WG
