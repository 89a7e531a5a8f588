import Verif.Model.DataTree

/-! Generated by `tools/gen_network.py`. -/

namespace WG

set_option maxRecDepth 100000

/-- The 1509 rows of `/repo/input_data/static_input/stations.csv`, 64 to a leaf, each as 10 digits: `lon` + 180 and `lat` + 90,
both in hundredths of a degree (5 digits each). -/
def stationData : DTree :=
 (.node 16 (.node 8 (.node 4 (.node 2 (.node 1 (.leaf 1807512575168751037516975103251727510225173251012517425101751752510375179251072518025105752057508675197250867519775061251967506175200250592520125061752037506075204250602520675059252082506325198750582520025055752012505625201750567520225056252047505625204750567520625056752092505875210750612521225061752107506575207750667520975067752117506475180251047518125103251817510375192251032519425072751997507225201250722519375070751957506975193750687519475066751977506225197750632520825059751987506475214250877521475088252167508225216750817521775082252152508425218250852521875083252042507275203250722517625123751747512425169750967517075096751937509875)
 (.leaf 1927509825195250977519425095751907509375191750922521125119752127511375224250682522475070252262506525226750722522725072752272506675172250947517625096251922508625193250857519475092252117509225213250902520725071252077507075211250687521175070751782509575177250952517975100751802509625200751012521975098752202510075208250767521175063251697510075190750897519225089751927508925192750912519125086752127510525214251017521425107752122509925212251057521175099752117509475181250972518225101751997509925198750947520175094751657510175191251027519025102251897510225224750917522525094752222509375213250742521425070251767510275178751027517975103252152507375))
 (.node 1 (.leaf 2967511325306251357530675133752712511925295751302530125131752987512975297751227530375132752822512625288251247529125124752867512925292251247529375124752817511825288251187527675123252912512075294251207529475116752972512075288751227528825112752912511325293251137529425113252487512625249751267524325125252437512425246751267525125124252507512475275751162527425113752762511225275251087527625109252587514075265751377524925144752537514025243251442525275142252647513975258251352524725133752422513575245251347524925132252312514125237251402525225124252482511525251251192525225131252287512175230251217523025123752317512225282251102528275110752822510825)
 (.leaf 2827510825285751052523725117252482512925248251277525175127752527512825250751292524875127252612511875261751187526375118252642511775267251177526675117252857510225321751332532025125753187512725224251227522325126252242512325245251277526875114252697511525307251277530825125252907513725279751397528325139252832513875286251387526975138752492513025247751267525425124252547512325255751217527175116252727511725266751137525725105252597510425307251312530575129253487515525352751552534675152250012515775341251462529475147752922514325296751447529575145753157515075314751497531575149253107514775297251452531425152253117515075307251497529425145252947514625)))
 (.node 2 (.node 1 (.leaf 2882514725287251452528525146753052514675307251482532175154752857514375285251452528875148252927514975300751502530925151753067516225306251517530425152253082515075303751502530125149253007514525299251497530075151252992515075315251517531275149253077514875303751477529675149752917514975293751472529275147752977515225293751532529225153252892515375300251542529675154752947515625292251547529625153252897515175327251597532175153753242515425297751422530025143253102514025309251417531475138253137513475317251402532025142252892514375288251417528875140752867514075285751407528775142252862514025276751472527825146252742514775282751477527375148252782514825)
 (.leaf 2817514625284751417528275142752822514425280751442528425145752792514525279751492526675157252677515475270251517527275148252727514575271751452527125142752722514175274251422527625142252752514175271751417527125143252727514375274751437527425146252732514875272251522527625151752837514925266251527526875150252682515825287751512528025154252697515525253751502524875151752507515175251251502525225151752547515175259251512526175149752642514825267751487525975148752627514775264751467526525147752667514675268751472527025146252702514525267751457526675140252657514275267751417526725143752632514275264751452526025149252632514775262751452526125143752637514325))
 (.node 1 (.leaf 2652514225264251437524925150752482514825251251477525475146752532514525261251402524625141252542514675253751452525975145752597514475259751432524575147752417514925245251462524425145752487514975244751502525075149752452514675246251462524525147252437514825241751537524125153252407515225244251532524625156252487515125248751557524175149752442513975249751317525375131252562513125239751322524775127752497512875235751417528075107752802510525279751037528025110752827510525284751067528425105752847510525253751547525775156752582515575252751557526225156252572515475264251562526875159253342515875330751517533375157253317515225327751522533875158753262515275)
 (.leaf 3442515825341751577534225155753367515725316251607531375157753117515875294251617529425159753122515725315251577531575157253137515875303251612530375161752982515875292751582510325096251042509525105251002510525096251027509175108750562510825055751082505425107250537510725052751087505925108750602510925061251097506275115750952511625098251242506275114250637511625064251212506225119250572512175061251157506675115750662511725067751202506425122250607511225062251152506225110750597511125058751107505725110250532511475051251102505175109250492511575049751107504675110250447510825039751192509575120750967512125095251237509475122250587512275056751237505675))))
 (.node 4 (.node 2 (.node 1 (.leaf 1247505775125750947512775093751287509075114750792511725076751127509075113250917511225091251192509225119250932511075090751132508825110250887511075086751122508575121250827512425088251252508825125750887512725089251262508975108750857510725084751082508525109750847510925084751127508475109750832510725082251072508075112250802511525082751127508125111750807511025080751187508425115750807511475079751142508025118250807511825078751192508225123750892512275088751222508375121750827512125078251237508025124250797512425078251222508175121750782512275078251282508625127750867512725082751257508525125750842512825083251307507525131250752513325076251312507775)
 (.leaf 1317507825132750822513225080251282507425129250777513075081751312508325128250737512675074751287507775130750847513275084251317508175130250862513075084251322508675133750877513475086751352508525136250847513575085751362508675137250822513875082751377508425138750852513825086251377508675134250817514125084751412508425142750832514475082751352507225134250727513525075751362507875136750762513675078251427508025140250792514225079251377507275139750737513875068251312506525130750632512825069251267506825126750657512775066751257506575127250642512575064251292506375122750702512225074251242507025124250727512325072751252507325123750692512525071751222506875))
 (.node 1 (.leaf 1227506775124250607512825062751007509025027751592501975156750222515175022751497502525149750167515225021251542502425154750257515575033251572503125154750367515725036251537503875154750387515425042251492503575151250297515175046251487508325137750832513725082751362510075139750572513525058751357506025136750602513825061251377505975134750587513525059751392506575137750662513675062751377506275136250627513425063251337506475132750632513625063751357506275133250637513075062251307506825129250872513575086751347508625136750877513075088751307508975129750907513125088251347509025133250862513475089751322508975129250722513575073251382507125136250682513575)
 (.leaf 752513825073751377506975137750712513575071751332507625137250787513525077751342507725133750802513375082251337508325134250842513225079251357508225132750792513725075751302507325131750757513225082751287508675129750867512825082751292507975130250837513125081751307508175131250842513075084751292508825128750872512875085251292509125127250917512675094751252509375126250922512825093251302509325128750992512775094751287509925130251002513075098251297508475127250842512625083251262507975127250842512575084751252507975126750827512725088751252508825125750877512225087251217508525123750812512425083251237508275123750902512825088751232509025127750887512225)))
 (.node 2 (.node 1 (.leaf 917513425092251357509475132750957513125104751347505625131250582513225058251287505875127750587512625056751332505625132751112513525110251347510225127751082513275107251322510625132751052513025103751297510375131751032513125102751292510225126251022512525101751242510025124250987512425099251247509875122750977512175090251212509125121250927512175091751217509275121250937512275094751202509475123250942512025096751202508175118250827511925082251187508325119750797512175084251197508275121750802512325084751207508575120750862512075075751232507525125250802511775072751232507375125750652512275065251257506625122750682512475068251267507075128750687512575)
 (.leaf 702512475069751292507075130250697513225071251302507125126750722512675069251282507225128750402515775040751532504025153750407515275043251527504725152250452515125044751512504925148250482514675042251502505575144250562514425057251442505675143250572514175057751427505875140250597514125058751397505875151750467515725045251572504675156750532515525056751552506225155250582515425056251527505225149250537514925058251512505225149750512515025056751502506275151250547515375057251487506825149750717515275068751502506375150250672514925059751462505925146250652515075062751507505775146250607514525062751462506225145750627514525068751467506475147250667514475))
 (.node 1 (.leaf 692514675074251492507175148750512515825050751582506575155250642515725071251567507575157250832515625075251547508625157250662514325068251402507825140750857513875069251397506975143250702514375073251417507425143250807514325076751437506725141750782514125079751392508025141750822513975082751387508325140250832514575083751407508525139750877513825087251402508025154250872514625110251477511075147250782515425082751547508125150750847515225094751432508425153750862515425083751487508125148750692514425083251472507975146250772514575072251457508475147750767514625085751447508775146250882514325091751452509275144250952514375095751412509775140250987514075)
 (.leaf 1027513925102751397510425140751032514125101751422510525142251057514375106251432510125143751032514525106251457511225147751077514975109751487511425147750622513925062251387506375138750642513975111251372511275136250957513625099751362510075133251007513675105751357510675135251072513675108251387510825138251187514325111251397511175139251182514075113751407505075145250517514475052251462508225116250747511225075251117507475110750762510925071251162507275115250822510625084751062508675107750837510825081251117508525107250892510825088751072508925105750892510725091251037509525103250952510125324250747532725070253302506675331750647532475061253187507125)))))
 (.node 4 (.node 2 (.node 1 (.leaf 3232507175322750737529175082753327506075332250592533125057253307505625326750552532525059753222505625326250602532475056253282505675327750582532875060752822509575282250937529275092252977509525328250527532125052253237505475320250557532075062252942506225295750562530625072253057507175303750722530675074752942506525295750672529675068752997506925308750722530875074253112507425309750742531125076253142507525355750517534925044251722513125171751292517225128251847513375184751357519425140751967513825197751387520825149251722513225173751317517525129751762513025174251277517875131751807513175180251317518075131251787512825179251292520375157252042515575)
 (.leaf 1977515075197251512519625148251922514825197251527519775149252002515375196751522519725153252007515475201251557520125156252032515575193751382519625138252092514225187751402518825139751882513875188751402518925139251862513975189751427518875142251912514325191751422519225141751907513875192751387519225138751922513825189251352519125135251912513575192751322519425142751947514175206751457518575140751862514175198751377520025136252002513725196251427519875143752007514025201251417520175142752022514025201751432517175142751987513625200751347519525136251997513475195751367519775135752012513425203251452522875129752157512175179751412520825130252077512875))
 (.node 1 (.leaf 2077512775211251412521525138252132513675211251377521025130752157513125216751307522175131252137512625215751272521625125752187512875218751297522025128751902514975191251497519175150752077516025207251357520775134752087513525201751362520325137752092513675208251587520325133752062513375207251342520275151252067515075205751522520575154752062515525204751562520725156252052515675208751512521025152752077515275203251317520575132252222513225188751377518725137251857513625203251382521075149752147515125218251537521925152252187515125214751542522175154252222515325225251517522275152252222515075223251547522675153252252515075219751497522575154752287515375)
 (.leaf 2262515425225751557522775151252307515175233751517523225157752322515525235251562523775154252362515275230751522522725150752147515475231251552523975156252412515625233751542521175158752157515875220751572521875148252147514625221751452521675144252262514525224251482523225145752302514875235251452523625144752247513875220751377522025140252232513975210751402521925134751952508575192750962517475098251737509825201250852520525090251822509725182750987519475094251927509075190750887517025101251932509275182251027518675097751847509925184251017518975098251987509925198251032519725096251902512725210750872519875093751947509325203250947517525098252052509525)))
 (.node 2 (.node 1 (.leaf 1902508925179250997518025099752037509525166251002517625106251722510275175751042517175101751737510275170251032517025103751842510125166251062519725100251977509775196750982519775093751752509575173250957518325101751832510125177750982519025093751762510225167251032519525101251812510125168751047516775104251947510225195750982517275097251772510175177251007516775104751987509875195750997519825094751887509775193750997517025100252007509575170750997519625093251962508875191750942519575087251947509025195750897519625091751972508975102750852510525085251102508725112750857510975082751117508225113750807511475083751192508675112250897511275089251152508975)
 (.leaf 1172508975120250867511875076751147507725112250757511325078751162508075120750797511975079751207508825121750882512325089251242508575131250787513475085251352508225135750812513975086251402508325134750722513375074251357507475135750767513575078751382507925139250807514125081751417507875140750782514125077251382507575140250757514025074251392507225139750712513925070751347506725132250722513225070751317507275130250717512975072251287507175135250687513225068751317506875132250672512775069751277506925126250692512925066251287506725126250677512375074751242506975121750697512475062251237506125127750597512875061251272505925091751392509825136251027513775))
 (.node 1 (.leaf 1037513525104251367510575138251077513575110251392511675140251202514125104251442510375146751107514425115751437512225143250907514075090251412509775139250997513875075751407507725144750777514275077751392508375141750842514225082751457508225146250787514825078751512508225153750622514325065751442506525145250547514725061751482507025152250722515175064751542506575153250627515325062751412505375151750597515075057251527505225153750512515525043751557507325155252772512175280251147527875115252797511525277751137528325113252817511275275751207517425132251767512925179251372518175137751802513425179751377518075136751807513475181751392518225138752517511575)
 (.leaf 2522511275253251127525925113252537511175257251107525325111252592510875257251092525625109252602510925259251097525975111252597510825261751072526025106752547510675257751057525575104252572510675255751072525575105752582510075256751022525875102252657511075264251107526225111752627511225266251127529025145752892514025278751552527875107252812510525075751377507925125750877512475000000000000000000000000000000000000000000000000000000000000000000000000000000000000000000000000000000000000000000000000000000000000000000000000000000000000000000000000000000000000000000000000000000000000000000000000000000000000000000000000000000000000000000000000000000)))))

end WG
