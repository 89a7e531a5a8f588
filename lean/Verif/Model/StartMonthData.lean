import Verif.Model.DataTree

/-! Generated by `tools/gen_startmonth.py`. -/

namespace WG

set_option maxRecDepth 100000

/-- For every reservoir or regulated lake, in the order of `/repo/input_data/static_input/routing_order.csv`: its row in that
file (5 digits), first month of the operational year (2) from `watergap_22e_era5_startmonth.nc`, mean inflow (10) and mean inflow of January to
December (10 each) from the files of inflows for era5, as the 32 bits of the binary32 number. -/
def startDataEra5 : DTree :=
 (.node 1024 (.node 512 (.node 256 (.node 128 (.node 64 (.node 32 (.node 16 (.node 8 (.node 4 (.node 2 (.node 1 (.leaf 4785111040856919103416730910332437061032606096103679164310497933481049735306104042139210384113261040533044104278706810372231321035517480)
 (.leaf 4788011032851419103232114710291920001028722242102645114910269216061033473790103553125710357341071034861692103514402310342871991033622745))
 (.node 1 (.leaf 4999111043708149103812065210352244521036025289104158556810527269321052721535104222839810420690131044207975104564598110399299351039794554)
 (.leaf 5002111033544216102496518810228470221022192289102113210510375715831048791667103556237810331141691032714554103377496110318073051028156641)))
 (.node 2 (.node 1 (.leaf 5946111042150111103657530210363499381037648902104049178710472951281049050063104861999010419991841041001959104265706910391544321037670675)
 (.leaf 5951011037823851103678214210350669381035229819103526699910414050641041817633103943192710365002361035709145103765792910381752951037995172))
 (.node 1 (.leaf 6156071040946740104213480410415583291043048494104229736210425197231041178261104006822210380750301036954424103832504110400711471041408492)
 (.leaf 6401121038194356103721395710353151851035182388103791219310431943611040138039103789799310363570821036366483103921740110386089981037921219))))
 (.node 4 (.node 2 (.node 1 (.leaf 6631111040695828103717851710343121801036457417104203929910488156921042100044103975395310393992071041101093104153925210388134931037803213)
 (.leaf 6861061027286661102625227410251717281027472151103487926510303987331025126647102366300210236322301024351032102731080410281759091027925680))
 (.node 1 (.leaf 7724111037991756102936598610277624301027204857103530126510514692591045856671103589390010341645581034830095103876076110345692501032452834)
 (.leaf 7725061033159954102801445710273683381032894470104150537610365973041032264752103012872210297558551031397581103519046110339351261030970299)))
 (.node 2 (.node 1 (.leaf 8146111043714052103698891610355908651033097690103482449610548981061056074905104074959210392038231041016230104482475610425228531040339792)
 (.leaf 8147111040418342103657032310348291861035060732103882224110471881741045234580104048179210392297821038797098104079382710395551661038279794))
 (.node 1 (.leaf 8331011048387248104499954710422207651041393146104671236310580590661050891823104113499210419124851047168046105012423510496106541049212580)
 (.leaf 8516061046826655104881333810451676441045442401104949501310511615371041305489103704205310400638881044765768104944703510500662921049993880)))))
 (.node 8 (.node 4 (.node 2 (.node 1 (.leaf 9032051009187688101218345210113805861012636749101080009110088092781007035460100622082110049280051006107722100829017410095180571011020693)
 (.leaf 9940121036239876103214536210277363701026687236102506243810343301851042374293104080159810403129411040383108104070717410378636531034876845))
 (.node 1 (.leaf 11407081046258194102941893810302515801038588171104822677410555080501061323547105724521110330312411031790545103823163310351500861029010656)
 (.leaf 11409081043983583102161452310212853011033385128104862498210570355541057579789104869358510410152001040583320103940869810338796841025221418)))
 (.node 2 (.node 1 (.leaf 11610121052941742105176381010510804211053329050105295532510555010661057137966105465154210482268271044749342105439421210569304061052319668)
 (.leaf 11656071040785253103258259910300828481035745475104557485510559511331042671310103446975610321497061032465669103753993110406002681037107576))
 (.node 1 (.leaf 11772051051548564105689042810549682951054265653105168526710509867181050017870104400056010345945381033873473105030990410583244831057331952)
 (.leaf 11774051042611561104985376410488402441048118174104292765910408227221037181134103398860310290898081026772589103325794010457948011049734027))))
 (.node 4 (.node 2 (.node 1 (.leaf 12164081048250856104490442810452001631047609963104853134010520534771055383809105268649510438015831039345297104370006410471341771043842643)
 (.leaf 12208111040315329102955398510264138831032667807104663129210509019681040973994104077648910382086801038603929104065077810392716181033200431))
 (.node 1 (.leaf 12346071046132348104048328510421942561047609929105266593510583409121057169169104177402610344217461030674535103223755910396534831036995427)
 (.leaf 12395071041024580104259553510414634041042098428104213095010463934581042964174104026167310368410091035187857103620325110375786711041107160)))
 (.node 2 (.node 1 (.leaf 12396071040635150104133494310406973971041589465104188038910452181101042715295104052517010374077861035592360103626536610371381441039981457)
 (.leaf 12576081040561665102897815410257172871029910772104031265910552049601043962888104177948610391285561037640119103936409310373472261032721643))
 (.node 1 (.leaf 12592061041947663104495094710440654341045122821104620794310471454611041713128103760240110340281161032732898103555462810403121371043520275)
 (.leaf 12613081044409218103844384410380458381045540752104910187310502992781049265436104769322710441942871042704487104158449710407434121040412544))))))
 (.node 16 (.node 8 (.node 4 (.node 2 (.node 1 (.leaf 12717051047419692105644619010549861101053545261104879067610431536831039360152103402169510280485111025436828102925092010475678131055982888)
 (.leaf 12719071041836500104333761710450118361045640901104628652210491392441048415618104083035910320443451026024031102474893710334028121041121663))
 (.node 1 (.leaf 12743011035311811103389614910304876351030265364103414505510391165471035856377103490209010351394631036168964103812951010379245271036287767)
 (.leaf 12752121036029669103001776710261910221029307384104166652010455799791037603671103627655910343114971034000198103591358110364527901033223258)))
 (.node 2 (.node 1 (.leaf 12753081035295752103139851810276803111028960735103749122210467432521040233214103681885610338707451031745562103189395910329772191033428737)
 (.leaf 12914061010277301101210391710115813321013153394101226556610117050511010080765100964483110078789351006827682100782342110091425491011120166))
 (.node 1 (.leaf 12964051042853046104887202010479231941045180588104286851610410803021037096005103418453210305167451033704678104272769910466104591049403739)
 (.leaf 13067071046837541104993920810505681791050838258105057086710514274531048984809104050627410317155731030275515103566190310479787661049715349))))
 (.node 4 (.node 2 (.node 1 (.leaf 13288081040272255104078541010396710011040636369104022057010408827561040648540104072422210401404371038791752103915039910391909161040428466)
 (.leaf 13451081039682120103889621010362408841036942642103993108810433343991041651765104043664510383505191036959246103854548710395098431040356734))
 (.node 1 (.leaf 13454071035066577103674447310361040891037776337103754903910377701401035831809103418620810326006091031196480103230988110331618641035266842)
 (.leaf 13575051048899135105454801110536876361053406273105108059810480068631041122194103205598010293825251035014918104261235310532112631054701205)))
 (.node 2 (.node 1 (.leaf 13580071024433855101860191510212162861028837458103180973510363796581034563933101841814509931377741001656744101198157910151024311016720241)
 (.leaf 13586071030833702101052240510106553151021840455104190855610493327931036498358102534250010210680281017340737101670836110154549331013643992))
 (.node 1 (.leaf 13643071036649239101419310310184189651032909422104213623110526923571049958309103110384110186708891020347778103414958210275548731019295384)
 (.leaf 13753091034327320103020256110282216201028990794102947550410387973611043648301104003341710361271051033214646103222652110306892351030466742)))))
 (.node 8 (.node 4 (.node 2 (.node 1 (.leaf 13795071037698371103806639010386897011043180427104404531510421706041039264482103591608610333452241031117937103046299510313549711034701928)
 (.leaf 13809111036517520102562185810291620241040007374104667349310497363061038418732102521745310166571901023560199103832893410346649381029661764))
 (.node 1 (.leaf 13947061044602860104986111610488110881049457652104857802710484282001042714529103337353410272009761027416643103488358910488747411050162602)
 (.leaf 13954071025359881100328775110067489111017114876103455702310466787951035947033100928446609827847200994053995100031075910010131871002452728)))
 (.node 2 (.node 1 (.leaf 13993071038216792103956448210376383991039602009104102070910415179741039259152103676905710349679111034007358103566357510371854571039241528)
 (.leaf 14027051042446081104671678510460763951044776473104395344710370134441030706844102619085110248397861033175965104421710610500231841050435876))
 (.node 1 (.leaf 14028051043670716104694402010476635911046712644104678945110405257691033553380102905879010269309831035677829104632586110502987251050377288)
 (.leaf 14166071039632811104036423110388378681041487894104358616310432338181040674624103771037810350694051033812354103540698310369783261040021921))))
 (.node 4 (.node 2 (.node 1 (.leaf 14205061028476250102972847810333755661038592944103473060510325899861026660565102042287610182212171016103185101797431510211620611028475619)
 (.leaf 14328051039491174104949087510483969981048830584104244137410356332771027877089102197226210175821921015407575101394028910323401851045996295))
 (.node 1 (.leaf 14338061031025916101826700110243332521039714826104618384810433859141028116647101647509310122812491014175969101576463010156124621018356032)
 (.leaf 14377061032519495103987627310372412991034810170103518974210335030481028571737101870288910092753051013525292102789932510331440431039898054)))
 (.node 2 (.node 1 (.leaf 14380061027843416103637145810341561841032753239103328911510320173341026939982101860100510103031051009114763101141908110195838041032102902)
 (.leaf 14402051043204535104886546710489205061045278925104437081910368494981026765986102280703610194202881031789285104579995310514860921051151400))
 (.node 1 (.leaf 14410061020595867101547320310235841121033287310103153283410280435201019988778101181459610070849561005501142100832798210070665701008422484)
 (.leaf 14419081050351274104143099610409800721046636637105402884210567245731057787958105295173210497366961048672994105010696610490067281045399197)))))))
 (.node 32 (.node 16 (.node 8 (.node 4 (.node 2 (.node 1 (.leaf 14493091032154324101093719010150784781032387262102528959410194375971030780927104652279010442128161030843051102892235210236214761017043712)
 (.leaf 14512061020075204102023245910224949941027282221102919386610288646861018107315096913560409147649110996515936101872823110202276271018678133))
 (.node 1 (.leaf 14551061040481444103890045010391194461043710088104577182810424281551039317935103806725310373245961036412443103808403410381355851040436813)
 (.leaf 14554071036136840103850614510382658101040754776104073785710396776991036424684103364306310318019781029946740103206659810332358321036537032)))
 (.node 2 (.node 1 (.leaf 14566061026389315103233663410316770861034037049103634384010342270841025400139100376262509865771030989047494101275749210156061091027018561)
 (.leaf 14594061023529040100536909310112969771026372810103891778110331741491022827496101434670410117123111010608070101786541810201955141014303010))
 (.node 1 (.leaf 14732051046485471105513509710532403681047228669104676776310439152141033489570101554789810059027731019565798104485583810502982131057619188)
 (.leaf 14735041033699448104446743610422003311034774282103365566210283584421016350829100258215109939405590995563592102644449210342364541046028746))))
 (.node 4 (.node 2 (.node 1 (.leaf 14752061034224318103624935510379709491041707364104390222710367303341020792962101147118210035296381013333681102390284810377355461040961482)
 (.leaf 14757051029292271103733432510392996311038987163103255235910273313611018088966100975090510018124531000830638101461901710246717051035739280))
 (.node 1 (.leaf 14853061039791897104813324310486739871050412316104492197310407602021029589647101701744110100686701008836941101412678210334937171041871446)
 (.leaf 14885061038372784104098958110415608561044097214104208726410397019741035880680103370774310323517701031544121103245566310366434541040763897)))
 (.node 2 (.node 1 (.leaf 14912051032235323103770210710391862031040262498103732682210297020221021701056101804861910155526801012783127101705239310325269671038669816)
 (.leaf 14993101035570140101166381410114316371033654839103739507010268526481028816781104754417610509349941036615544102913875210297196901020460187))
 (.node 1 (.leaf 15029081028697469102654207810304960691034242371103363916510343134151027847678102875530610217126251020825715102304075610265860441027244094)
 (.leaf 15165101027246224100442706010003084431007568307103607442710317521611026548347103527280310403007721031508461101945985410156298641008320379)))))
 (.node 8 (.node 4 (.node 2 (.node 1 (.leaf 15188061023891579100587802310133467351028323925103859059310396160161023636526101080031810072424271008343219101089216310091288871006946807)
 (.leaf 15190071004355645100556240910036370741004508301100344382510045560621006449182100286005210033303961002843294100465633610049653541005455451))
 (.node 1 (.leaf 15209061033901228103419635310380828511042286950104040801210377786051033613886102901175810247069821024329583102555218110283713461032645018)
 (.leaf 15215051030235958104101245810392721751033579854103318487910287770981012087678099226954409735702570987653521101004825610276034791041820435)))
 (.node 2 (.node 1 (.leaf 15224061019896146102630067610311518531033175173102969501610211117760998558581096601924909531188720965609136098353459510058095171020918666)
 (.leaf 15236051029382111103833578110403924391039902910103431771410264866951012986501098975235809898013241002280526100853178710244278431035197476))
 (.node 1 (.leaf 15251051024216232102811150910319125961039168956103250191710194896830981308081089864780700000000000951895362100320966310211452171029923870)
 (.leaf 15310101033902366100820023810129698341016342542102293072010258264761037914860104941757810496528221033936024102675447610201951641013018909))))
 (.node 4 (.node 2 (.node 1 (.leaf 15316101038328185102079618410241106891035857490103305409210264241371030503797105215415210520301481040405480102973964310326706391027673872)
 (.leaf 15317101041442521101697119510243682651040718971103888054610307993641036339286105596109510549585801042738325103185210310349556571027055503))
 (.node 1 (.leaf 15319101032002937100857913010068698481017748947103897047210351410021026653643103846237510440086761037859151102389094610232943281015976742)
 (.leaf 15352071026832972102471437210254820801032109396103166812710319673701027736349102514081910185370971024735148102457781910268313911025579967)))
 (.node 2 (.node 1 (.leaf 15357061030800511103446877510348791261037615618103536853610337557481028556519102393149910202755701017279219101669603310275407321032976904)
 (.leaf 15379061012583363102484846210246905951019695625101570306610139130561002141777098599614209711293760971056274097829053509966004021017050289))
 (.node 1 (.leaf 15471101028492774101645182210179527271017889584101425894210141599101028495229104147133810428681691031252937102366708010237375041021513110)
 (.leaf 15483041035278770104933552710489021421045957535103343016310227396861013158108100483291010022959911002204452100075859510267041911040666321))))))
 (.node 16 (.node 8 (.node 4 (.node 2 (.node 1 (.leaf 15485041037122207105052901410509305961048800856103683548910263635251008303280099190779409864271210997800584099909919210268649881040725219)
 (.leaf 15487071032782960103143683610353859271040741956104123906610409578511037672736103247135010239545731015154934101031744710124144481022648366))
 (.node 1 (.leaf 15519061031844453103364086910374049391041052279103815056410362410561031030902102397291510199242631016047177101484242510217749381028802842)
 (.leaf 15547041040627980104880745910482187841044072855103915638310321381411019819147100557057510009831581014387293103448036610479847521051468377)))
 (.node 2 (.node 1 (.leaf 15570061035588103102060267810311560901044784028105316437710453426661024617372101715890810132275151010832097101731299010318511261030266626)
 (.leaf 15639041038775671105161230610511046201049100784103639006710251657601017522369101201925010071914751003177301100226801110331152221044016682))
 (.node 1 (.leaf 15708051033569944104372734510441953001043615392103469044610248379571013304652099555634209825892260992814317101462750310295077911042462959)
 (.leaf 15778101040954108102639118310288314771040337522103797302710356765031037462382104936853610525194951048073605103401633510350724391031637752))))
 (.node 4 (.node 2 (.node 1 (.leaf 15784051035902607104886847010498132521048668547103733326110265099381008610719098616514609822482460992805216099659647310251412451038969208)
 (.leaf 15802061034065822103845881110401920451041266113104080414310385458841032808194102645686610233364111018971404101845533310275499431035765770))
 (.node 1 (.leaf 15807061040737695104606073310474456521048400617104314260110417988201037000168103347813710299927851027423296103035481010361317151042344918)
 (.leaf 15809061037024298104036465510419171521045648796104164055310406763451034228671103077647510265309621026601216103017449410334937241036371991)))
 (.node 2 (.node 1 (.leaf 15820041011014296102927976810238384751015435077100136608709937648960964085795093333971109266470560922471473096209682409924652591022253185)
 (.leaf 15821041012911775103007944510252518831016271154100366358109932205150957042210091520137109135251240934239160097322155909960656601025366894))
 (.node 1 (.leaf 15823041014558073103106818410290541661016348600100421416609996916080956803931090188070808774940580964838723095591200710007955071024500064)
 (.leaf 15860061033672526103336221210350896721045840869104999610710381569681019658264099921342809735800810986599371100348914910223621101033954747)))))
 (.node 8 (.node 4 (.node 2 (.node 1 (.leaf 15863051035729984104246123410460686151048727634104101004110292108241000764478097693570109829677051012678896101840926210327590231043431684)
 (.leaf 15865051040643061104464548710494254351051210492104597176710359303541026913369102306726110186040351016534208102061591010405413851045876299))
 (.node 1 (.leaf 15879040992207138099399473610115770981007285636098242707409646310980957106005093448717609331340990980155200098407481409845925790983614904)
 (.leaf 15921101040419026102778558410302795171040914699103942922010358856831035388749104780903410495512431048778284103561283010332704401031556536)))
 (.node 2 (.node 1 (.leaf 15931061030997567103750376010427799751043192281103795151210322822731023685464100667350409996479660997888737099622773210038028911026533281)
 (.leaf 15954071031114403102822857010314362111036761864103328902410376843601033793455102646532410217237231023918448102668115710281011151030112796))
 (.node 1 (.leaf 15958061034025574103673209010383368011039462272103872120010362395011032241666102378307010194658871023974574102578049010378400911037647621)
 (.leaf 15966061033358865104011290210416723671042909189103889217110349383611030506845102451576310202972721016858748101591407010197812051033043966))))
 (.node 4 (.node 2 (.node 1 (.leaf 15978051020744094103313148010307087801026269183102194308510166781961002346184098465644509833722150985354609099209193710165042291032101969)
 (.leaf 16076041011099361102345688410309959701026623448100072591509485856210000000000000000000000000000000957517072096862083709721189330996181048))
 (.node 1 (.leaf 16102061034466864103648853810390078241039879612103873782710374471111032592414102400167510196563681025077634102686749910385242321038587197)
 (.leaf 16107061034780005103527030310379120511042754457104136582910381548021032688126102752470810247029941023596870102627536610342855871036535869)))
 (.node 2 (.node 1 (.leaf 16108061032269371103569620510389115991043025139104050287110351777501024125990101131014110056709871001023802100871393610258754441035697077)
 (.leaf 16111061041816183104507776910448673541046754796104300923410421603371039452296103774064210367622791036989972103626288510406632941045188891))
 (.node 1 (.leaf 16119061031283799103571572310396389621042506375103717052010324115021024196917101699727910135610711011577885101793534210243143351028281943)
 (.leaf 16242081050975593104422228510449083061053376032105869150610569705531048609711105252106510467155391050359034104878435310505486161049326336))))))))
 (.node 64 (.node 32 (.node 16 (.node 8 (.node 4 (.node 2 (.node 1 (.leaf 16270061036981960103703529510400376541042493498104114202210399861831034381296103125844010277704431029909567103232607910404065941040257475)
 (.leaf 16275051041764722104429310910450766191047796973104281031910417468731038958596103703630610354887801036387058103598012610414405561045618299))
 (.node 1 (.leaf 16329051037053770104220499110428706841048183819104059880610352305031028971716101851641610137863121015979024102966272710390650791042486680)
 (.leaf 16406111033378616102436102710265870781031049854102874558210286637061021136325104087124110421520201044505045103348805110253394231023711623)))
 (.node 2 (.node 1 (.leaf 16437071036630409103637887710399095001041895896103944966410408433131037100006103052384010283852341029257946103171025710391384701038948547)
 (.leaf 16442061037836499104303946910441665711047727346104212787810391717341034727712102970576810264049021024836295102540248910312745981038456600))
 (.node 1 (.leaf 16445061039149572104313072210438101231046196437104231410110405042531036211933103326429610317989261031394854103356721310340509841038330377)
 (.leaf 16450051034214523104271938310416825581041691880103535102610301828561025473242102594450810241566961026726074102828663410310469281036393577))))
 (.node 4 (.node 2 (.node 1 (.leaf 16458051014598566102518825110303789221026633106101693972510059672150990248282097492631309676289110974003186097743263109952231441009276800)
 (.leaf 16559101035770895102124949510236984571026971930102989057210334058341037268822104863300610471638361038804950103474571010288005681024900954))
 (.node 1 (.leaf 16565101037887193102931835510323766821032321341102867815810280497291038760895105084308610452894761045433973103221908410305800581028106275)
 (.leaf 16575111040590051103775881410377088451041165357104132679210407918031040208838104216541210368819201042446522104396978210404765831035959895)))
 (.node 2 (.node 1 (.leaf 16602061035056019103578951910386450431042798697104064854510395385571033096002102698102610243800201023607763102675218910352607671037364575)
 (.leaf 16607051041973033104592618710455645821048786784104360290510411627681038962124103734207410356838121035348475103739271810408690591044720243))
 (.node 1 (.leaf 16651051025679703101493638810255975111042908721104497887310200495950956510134092567037509245728190982151624099876431310133744561014491488)
 (.leaf 16726011031614207102950063410253285211025034939102400309110124030291002287409103200716910384216221038746055103795451510353093231033140938)))))
 (.node 8 (.node 4 (.node 2 (.node 1 (.leaf 16773051039774163104810861110456581751047833263104212256310361562261032068933102848760610261943961024716283102980874510367602471043797600)
 (.leaf 16775051041646735104739181010472512341049230727104406565110415979741037812043103524822810357389231033123785103499170410378802381041609066))
 (.node 1 (.leaf 16783041030805472104366784210414600091035218033103077063510249540130993132005096851559609819262360992685533100708316610251449521041762104)
 (.leaf 16927071018147267101699417710189805501026401765102143652710251790511021547704101092865110049840571007030591101233531410169863591017385939)))
 (.node 2 (.node 1 (.leaf 16931071033860476103463251310351392071039752430103728880510396540251035558868103102617510267961421024270216102440892410320184061035433160)
 (.leaf 16932071031970375103255525410350990171040713930103621060410370845981032159088102436009910199509491016698104101694713510262155011033554026))
 (.node 1 (.leaf 16934061036189229103573515010390334351042949956104021023510395749061034724421103144509810283510901031219488103198302710360600151038008186)
 (.leaf 16937061036997212104672535710448653971044695546104179766010375710471030918958102452225110191919381014703826101437546410266566851042486659))))
 (.node 4 (.node 2 (.node 1 (.leaf 16938051038234752104889113710452540511045492634104072534410356866751030249743102077203310173674881011962811101584692410360048561045902088)
 (.leaf 16942051038443701104550436610444957621047130483104281852010373455171032916838103166336610290418361026649744102867990210318535001038444876))
 (.node 1 (.leaf 16946051040490782104862357410464490401048895366104199169810371890781033203757103045830210306458431028280460103476075210372929551041488387)
 (.leaf 17090061035700416103733348510399985561043704141104142880610415028941035447531102778738410240616521021163092102446538510318492361038168579)))
 (.node 2 (.node 1 (.leaf 17091061039719169104024662710423254431046066604104321096410419107141036832130103328261310303022251032505929103402237110399917031041274214)
 (.leaf 17093061037577735104778428110448713571046894713104229505410380153271032191326102546710510191513871013758190101473078710268339891041331411))
 (.node 1 (.leaf 17097051041407316104823318310469688441048738770104412706810403211301035697468103499776210329187421032904477103417239510381187831043369035)
 (.leaf 17099051039316681104852897710459038731046888782104171386910363343721032395068102950062810284838851025022986103037977910358193371040913071))))))
 (.node 16 (.node 8 (.node 4 (.node 2 (.node 1 (.leaf 17107051017990443103295701110344041901025844279101822511510020739790980627057096585622309595650270963711117096753364209901977801022338602)
 (.leaf 17187111018410950100725539310132173971012207779100358166810026182601007827552102379305710321245831026478155102455277710177164581009221795))
 (.node 1 (.leaf 17214041017111906103461323010332393501024431801099302121609479829820000000000000000000009799198480989578303099879507110065784701020030950)
 (.leaf 17229071018223125101679177810205597891025088503102138870110249466361022356075101221148410080353331005698224101152204810161462951019174576)))
 (.node 2 (.node 1 (.leaf 17345111024919336100724141110135962781017631651100707311810024381751016249710103441309610395382631032154825103027155210226903351012517408)
 (.leaf 17381071021763528102127058510256101851029075617102344823410246289601024957793101294483610091827841007454537101939751710203209821023934646))
 (.node 1 (.leaf 17382071026158451102559137410286153951032138058102733244410324388361029047404101771675410141079451011362508101844417710277901081031189258)
 (.leaf 17384071029982304103197215510332431901035449691103272189210348111031030388743102076418210168382801018143224102138471810311459071033632044))))
 (.node 4 (.node 2 (.node 1 (.leaf 17385061036506445103967310610410974411042333519103865770710394533311035380953102685788310237476071026086895103060434110380338441041666359)
 (.leaf 17502111023461575101506567010136593541015313358101107121010046216321020656332103514824410335381621026536596102469645110206549221016378235))
 (.node 1 (.leaf 17535071024559334102331073710268715131030606396102528553610290065101028240640101610039110153920671010964644101907656210247195131028020026)
 (.leaf 17537061035953704104006327010409462991041932912103985044610376261961033241261102716281710253072071024312408102975058210366012561041000847)))
 (.node 2 (.node 1 (.leaf 17538061034220160103827258910407259221041808623103996126910360990851031912631102720864810226017621019109048102373713110292361101037981346)
 (.leaf 17551051016496232103142837310329470031022383674102213628910072368320965371545095023784909435740250959692209098754040709926344081015681356))
 (.node 1 (.leaf 17630111031721322101936942710205434861022888422102277425510249056531030177525104367348310404787251036032963103244196010272198751022851209)
 (.leaf 17661071011357515101122788110166063931018938704101291448210120767791014349072100152726110000264471003782553100870948210079140871015227669)))))
 (.node 8 (.node 4 (.node 2 (.node 1 (.leaf 17662071016431780101620468910196610941024599494102133659610191669791017132463100753435710053035811003024740101066806910137132001018980429)
 (.leaf 17665061027797931103086672110319082591034241372103240562910340372101026169289101729541810141887231011191942102048322610272907591031692978))
 (.node 1 (.leaf 17666061034119983103823042810387363021040678324103952493910370296291032449139102650712110222332131020420167102486542310319036251038744207)
 (.leaf 17802071013221916101252290110167445011019532442101679735410136997831015135040100504263710012797391001060841100948278010111159811018444831)))
 (.node 2 (.node 1 (.leaf 17903091037384621102513159910294840681033756116103334382910351118251044846653105043229710409633861037070377103442260210319530371024633123)
 (.leaf 17928071017168833101711182210235244041023935195102502165010237927461017279629100765174810037097611000802081100015679310103380361020036567))
 (.node 1 (.leaf 17930061024650278102781059210290282661028633732103041144010288788861023437513101875054710147684631011620806101668676210196719111027414756)
 (.leaf 18026111036873734103050315510278438881027180945102592464110250911481032627473104706891310447641831044691199104050570710360721801032705869))))
 (.node 4 (.node 2 (.node 1 (.leaf 18031101032276433102452478110243486411025652524102481521110256133861034702076104269709310383253971035479716103219844810295102461025753261)
 (.leaf 18033091041949790102811907910322241251037104577104063176810432477781051721067105402068610450965741039637583103581855410341794811028090636))
 (.node 1 (.leaf 18035091041437859102593339410336950811040103350104056568210423133921051186597105206486910445721091039348443103680480010324836701024783638)
 (.leaf 18037101047848693103799929910406096161045065100104614928310494943191057163066105346528710523624721048667800104440537810412669301035356330)))
 (.node 2 (.node 1 (.leaf 18061061019912850102237261810253657291023622374102618041310248545381018519971101045561610070254751007003219101710867310158427561023670227)
 (.leaf 18115041037584732105072993810502067861051016928103307811510078914740981606197094061697509405995260981593313099922397910236158681046047152))
 (.node 1 (.leaf 18173091045447179103174479210376855861044743084104803848810494693351057465221105497912910463915591040554602103857621510339313731028548675)
 (.leaf 18174091045425502103237128110332227651040236118104506306310492689401057070935105521657010492010041042938913104074484510371004321033955019)))))))
 (.node 32 (.node 16 (.node 8 (.node 4 (.node 2 (.node 1 (.leaf 18204061023938337102678019110276826701026709559102890470110263566671021645969101723053010136768111012554839101685140610215571531027884498)
 (.leaf 18205061032216065103702242310376888811035897188103663314810344586911028848935102666992210221818781022077489102037939510279087421034064980))
 (.node 1 (.leaf 18309121042377205103795729310356272411040066566104427256010439127841043103116104594134410407311351043557235104594464310437148421040242169)
 (.leaf 18315091051256991104113265510460028361051498546105430017810555738491061649878105724182810516286941049526487104599045310421607751038286942)))
 (.node 2 (.node 1 (.leaf 18316091050867341104106651310454494311051164102105301932410545143781061153137105704969410516925211049729562104537189810416378381038248304)
 (.leaf 18432111035477233102709788710247932221024947549102342330810209187331017355778103375685810511400291047534842103943191910329764881029516138))
 (.node 1 (.leaf 18450111044504256103181504510341569761040631428104181534910411102191043717703105227771710558978691050519414104493465910405311571032762908)
 (.leaf 18457091043531462103462879510378176171044240661104589190710468252221050426557105158538410444350661041516932104032212110386811261032670408))))
 (.node 4 (.node 2 (.node 1 (.leaf 18459081046181725103504564810399447051047126572105049719410508084501057630828105328715610424572461041721789103652376610373607561032986951)
 (.leaf 18472010000000000000000000000000000000000000000000000000000000000000000000000000000000000000000000000000000000000000000000000000000000000))
 (.node 1 (.leaf 18575081042725627103607839410374747541043766906104639667710444489441050448242104884523810421057951042038051103805450410382303821034257379)
 (.leaf 18577081042743369103092250410346172991044054645105028534910501415951054604293104820298810369337261035802625103030073510320717151027219475)))
 (.node 2 (.node 1 (.leaf 18598010000000000000000000000000000000000000000000000000000000000000000000000000000000000000000000000000000000000000000000000000000000000)
 (.leaf 18655010958474281091889935708535992930956293861090754549900000000000000000000000000000000000000000000000000000000000008851329450987799485))
 (.node 1 (.leaf 18719111044010752102598098710280649731035658176104342472010443741291050157581105084277210486540011050774345104909714710407259551031472324)
 (.leaf 18727081048856480103524035010415909321051221188105734636910561343361060540948105044660510428271171038691691103422007410363006991032230985)))))
 (.node 8 (.node 4 (.node 2 (.node 1 (.leaf 19011071042580507103554061310396765081044824529104922071710507852621051731910104126343510387381841033699002103655201410363089581032433664)
 (.leaf 19013071048660520103548210210410187861052153378105867908810573037491058043362104713938410412452071039169746103700172310360188301033825026))
 (.node 1 (.leaf 19018071047022873103353379510406333961049536588105575905210563927721059166521104632661510401165281040275573103376752910308315691029778047)
 (.leaf 19019081046154242103353643410380978481045065565105160336210536446981058019987104840481510450799761044041474103846143610338803001031736138)))
 (.node 2 (.node 1 (.leaf 19020101045388902103359085610364481231043078187104831563810511204351056603170104861315310499591021046169671104027756710345862761031603724)
 (.leaf 19135071047510971103425027110378624281050809270105846149010580895311058186984104264117910348642261035773680103357221210340663181034322241))
 (.node 1 (.leaf 19256071043997426103169100710365681641046793273105245470510556799101055032329104162737710404074951037413070103087022710283813791025791373)
 (.leaf 19280041024562654102646572210251171761025588553102415229810228917221022235050102221463310221932841023727778102548971210261042901026518619))))
 (.node 4 (.node 2 (.node 1 (.leaf 19366111040896848103502042510341621541032963222104032423010419772331049253359104686296810411317491040788859104211877610382007481033971783)
 (.leaf 19373071048186884103910912710437837471050374592105583189410565135631056551215104747682010465814951038733939104041404810396582611033245057))
 (.node 1 (.leaf 19376091045307308103407301210405305831049819734105464079310545445061051450386104219485010459864011040551112103557163810343096801030065068)
 (.leaf 19484081052284780104130466810482029021054998971106080573910617611601060951863105512022210503333291040361410104132021910409848891035836962)))
 (.node 2 (.node 1 (.leaf 19486071046764726103446318810388348391049716873105643855410581092481055263952104218456710434679491040127926103627319310344473471031586197)
 (.leaf 19491091042219044102640170410307891101040965380104712460310526018831053240318104308155010447806131040788927103168368810275622581024115629))
 (.node 1 (.leaf 19747071053048970104037361410455439221056213036106447633910648487631060636818105282870710489633831042839319103979018410392533821038178563)
 (.leaf 19750071052336950103809526310434293851056510374106152321510641658681059993596105132416310518410161044601342104139872610369720671034184864))))))
 (.node 16 (.node 8 (.node 4 (.node 2 (.node 1 (.leaf 19839101018230696099199186409820428560971736763096900164109800378620999486592103571597410367272421024304242100849003010090300820999445754)
 (.leaf 19848111039737165102736679710227159281018770627101582809310155115331040059824105152873010507993461048967192104130085810345961111031815741))
 (.node 1 (.leaf 19850111039556506102320557910155847081013505515101632907810180817351040760526105222691010503280041050417546104055753010323886861027262327)
 (.leaf 19862101043305815103349025010330343431034197904103690013710467233801051615232105205419410497596621045172634104216037510376723341032547113)))
 (.node 2 (.node 1 (.leaf 19870091048657294103305709010375884261047279069105513897710581235371057021596105065852510510839991046153035103916016810330674521031841597)
 (.leaf 20116101039611194101756568010086593391009732410101599492810130575651045683552105277944610524342871047234157103829639510299362791023840288))
 (.node 1 (.leaf 20117111041040059102683600510220697111019836524101687167710161801661048193588105163797210526924821049261687104170699710343987711031146244)
 (.leaf 20128111042247177102527097310211593371017587497101551731210292940291048945518105587330210541523121048804793104268361110370891171027731882))))
 (.node 4 (.node 2 (.node 1 (.leaf 20130101044018956103279667410320466671032111960103150810910419749251050154802105449411010541791101049090703104388973610395177481032407883)
 (.leaf 20137101042519321102482099510235587271031186395103701613410480550851051692663104978211810522358051047474152103755987210324183041028664397))
 (.node 1 (.leaf 20142101043483647102188289110157319401021641403102617907110417812571058499796104958100510578102811049537356102974211310245466221024405458)
 (.leaf 20371101033622698101354292410062249820999234795098931073409829927041026225236104767503410520692671042470001102702327010212464261017599577)))
 (.node 2 (.node 1 (.leaf 20390101050967217103810787610411002071042582184104494213810495884351058172464106181085010604413231054833264104773895410414261971034791819)
 (.leaf 20394101039572955102809707410248015881024843124102641166410423460781045857300104458007610492873381044905740103875198710354630381029295935))
 (.node 1 (.leaf 20397091047322319103053731610309946681032201946105081267910577483191056474403105139621210552000751046270102103848599410339271351030180542)
 (.leaf 20398091047458715103170950610296118501034051955105144267510577344791056767002105126192310549504251046767140103726869810339185891029613873)))))
 (.node 8 (.node 4 (.node 2 (.node 1 (.leaf 20416121025652658101963508410157487661013403590100944581510072937431009965008103096004310296251931037996151103618960610260253341023476326)
 (.leaf 20424120995521124098877520709857259010985010685098287801009993063531007915726098948894309782931720997513354100605407909979024290991006238))
 (.node 1 (.leaf 20541101042302393102609900410247026051023658836103403875010469126351051814136104988677510543967151045974136103706348010303147851024501668)
 (.leaf 20661121038993340102739025510230275261020164434101628289710235444611038123332104203449510498013261049543251104570894310413664271032049008)))
 (.node 2 (.node 1 (.leaf 20768101041513223102490811110201172081017811445101429185010121481501042096536105412459410580876151049628142103639509010318828161028293323)
 (.leaf 20883101043279460101885269910097189321003801115100476228210039531431046945171106006283610584557671050598654103668873310297191001024750928))
 (.node 1 (.leaf 20894101037937475102418653310185546791016666780101419732910141816681032452841104909110910534611111048590874103736225110321473021027450370)
 (.leaf 20902111045351734103398539310290711921026678800102341140510325843971049079031105238699610572214961054273230104995637610443119101037908717))))
 (.node 4 (.node 2 (.node 1 (.leaf 20919010000000000000000000000000000000000000000000000000000000000000000000000000000000000000000000000000000000000000000000000000000000000)
 (.leaf 21010111045481804103149295010259645111024032985101949939910170720801041034009105502946810594202591056542584105069214210422333741034861616))
 (.node 1 (.leaf 21041071013270793100950859410016520500990651128100255790610275285561021528949100967894910038186491007771090100625389910162796881016259243)
 (.leaf 21101111009587955000000000000000000000000000000000000000008654922441025804566102448164710162536391017924177101156971509007657960881890742)))
 (.node 2 (.node 1 (.leaf 21107101040317841101125144609981376931007002420101737695010273295441038148058105402397510552409201049472508103734533610307784361019126519)
 (.leaf 21127111035816577102087205310157883211013739976101149818810283531831039006968103681952710399062221048640784104913515010357559841025653773))
 (.node 1 (.leaf 21128121040295142102519857410194953031014237855101913644810368282231043828881104029247510448626401050116887105122565310410338531030119455)
 (.leaf 21154111021678303100280680009980560780992621435100356065810352458481033718452101663564410114147371027534952102455810910210153551011776970)))))))))
 (.node 128 (.node 64 (.node 32 (.node 16 (.node 8 (.node 4 (.node 2 (.node 1 (.leaf 21223101036574442097903022200000000000000000000095706080409670096371035055175105337129110536847981044327698103380245710184490961006257275)
 (.leaf 21244111035882791101866496610116755511008400932100737853010254609681035827899104135758010447531911050026774104549090210320768431024023319))
 (.node 1 (.leaf 21337101044946142101749115009968198260989962828100396884510041961981045366919106188061810612199721050766104104177187810308309741025837008)
 (.leaf 21341101039964727102283046310144088171007247787100729411410220173391033904569105214984910567768711047232162103988918910318570741026995839)))
 (.node 2 (.node 1 (.leaf 21347101052085765102997428810245599031022327225101812565610279975771055991868106618889710675744881059941823105160002210409612011033535292)
 (.leaf 21439101053871034103008747010222926511018445933102029729810270222071059725205106950927510685018141058767249105169797510411992181035530662))
 (.node 1 (.leaf 21447111040478755102074410710136436041009650964100880233910296926571034847697105109470110564912841048618283104385871310328079671025545458)
 (.leaf 21551111043250953103272574610276187451025475125102174460010349571921045810651104891826610559981071054582957104481479610396654081036036754))))
 (.node 4 (.node 2 (.node 1 (.leaf 21552111045321513103496260010305287631027670543102394829210323616611047220046105109464410577993851056741101104885310410421434321039084731)
 (.leaf 21655121028687201102351230410139489501009931937100805555310196596641027135839102717341910361905391041569467103434290510314502211027500538))
 (.node 1 (.leaf 21740101037028577101604239009966824190975611902097793025909906730431041291843105373541910514277081040997431103582410110280217431024353007)
 (.leaf 21754011047974431104724740310424572261040667063103909337710409724181041515102104049415510363580811044457565105611437610592637801055171234)))
 (.node 2 (.node 1 (.leaf 21757011045695402103867752510351010221032238419102945458810359449221040494660105012714210508069471051693950105570953310499121641047467924)
 (.leaf 21765111035159274101772269810129380611010327504100684484710033908501019203157103393576810430911591052844608104742816210342214391022620365))
 (.node 1 (.leaf 21831111033484722100362335509636538850931488466094242593609901831791033814867104958809110491464641037257620103532931310272301671022667582)
 (.leaf 21842111029821682101539160810045625551001437780101541051310243230681028985700103208253910383935401042501984103833358310291059471023085125)))))
 (.node 8 (.node 4 (.node 2 (.node 1 (.leaf 21849121044586553103341612610291021031024091425102315710110327149671040679052105061776410519743841053284026105453115910484369291042909577)
 (.leaf 21940111038990912098322607809622070230951260520096334254609727496401033406741105668653310554179391043110177104003988410321320911012538600))
 (.node 1 (.leaf 21955011053751518105119336710463965761044349378104512590910485968031048510193104596513510458901521050944742106136306910659461221062763133)
 (.leaf 22034111040638047102759615910235012051020378060101657416810235522211041888797104939443810524027751049788236104553583710346706081031830803)))
 (.node 2 (.node 1 (.leaf 22041111044336379103538005510287042461024173840102383175710332466771045660014105033128210546180181055258782104936473310433591411040367367)
 (.leaf 22043111050266677103250966610282659641032168177104067606510499087631056986947105710691510593569811058444240105406679210472505751038946282))
 (.node 1 (.leaf 22048011049871178104353246210372740761032712345102452702910327024621043488368105594377510582562391057878619105783952510526206161050696052)
 (.leaf 22127091055653055103036977510123550911000133158101473705210225674821065511422107413270410687439211053689439104876627810413020031036144649))))
 (.node 4 (.node 2 (.node 1 (.leaf 22211101046740086103039077710249504981020901561101534841310112946731049653766106294016610607391441049216165104493119410388900871034031249)
 (.leaf 22290101055158928103543308710310630661027850201102413357910258919381063454751107099493610675987741056921160105396402810466037371040234351))
 (.node 1 (.leaf 22370111044097096102896668410240018201020770339101724828810150246081034729316105935402410591401471049185879104714823010401008481033380867)
 (.leaf 22374011023346729102161379710102385010982387880096522622409978871231008944170101427554110185023451024442706103890262110358287011025567813)))
 (.node 2 (.node 1 (.leaf 22469121045173033103440326710297935301027240678102450135510291441331041879887104812616610541155921057215186105553196310462010511040231831)
 (.leaf 22470121046711453103605590410326306041033038929104016826710469246971049463400104879573510500748751052040984105457857810500264881043786987))
 (.node 1 (.leaf 22513101010491558099188484309869530640984449090098116081009934589360993151871101179178810299694381026286064100515835209992177330995581731)
 (.leaf 22549111041824959102536539710214587311018448726101683009410165247051049149932105647325710528563931043861328104372961710393788791031318788))))))
 (.node 16 (.node 8 (.node 4 (.node 2 (.node 1 (.leaf 22639121037966436102087791410123082511010247047100874482210254035371043078257104872190110455030461042295746104690421610412807751029177038)
 (.leaf 22650011042418217103737908910324423311026210031102205585110246178561032778186104080675910466908191050856512105451120110493554181043701469))
 (.node 1 (.leaf 22754121043685948103574885110316393441028795301102614769510315312471043776392104731937010489707611051571048105507647910476421961040314761)
 (.leaf 22769121049981102103710300610323911751029588048102586001210453939001055685073105372012710540445161057802655105933926910531758961043852787)))
 (.node 2 (.node 1 (.leaf 22783121027189587101899234310135663981011196467101036442410159520231024220150103000125410357093401035276731103526186410324198551025867572)
 (.leaf 22829051006050148101648588310146999101006841446101850360210045441990998253980099691671409945763740992283670099420135109904780620987823904))
 (.node 1 (.leaf 22871121039995432102697199110228591491021937948103323088010432766871045244261104527060910452391401043668779104282784010401141511032581340)
 (.leaf 22873121037181899103088831410257602321024413914102963301510386622081040913918104109190110419231211041755457104222681810393560001034333799))))
 (.node 4 (.node 2 (.node 1 (.leaf 22933121039640265102454759010198521551017098441101597784510239687991044180241104977166810439736931039008026104584847010482263151036675106)
 (.leaf 22962011050041539104494464510408994971039398056103859582110449745401050551839105356394010543809061054342100105677950310541042771050334402))
 (.node 1 (.leaf 22964011045489200104267510410381835571035634669103318469610372351581043852719104863409210501579221050120803105142598910506791951047692757)
 (.leaf 22970121046048265103539861810381577071044448102105362073810527687511049176165104441648610423723871042948830104720050410474639781041360035)))
 (.node 2 (.node 1 (.leaf 23022121042827910104046574310358561711034298551103166635410321467071036808955104287292310485575531052843612104999274810448446151042783414)
 (.leaf 23025101035029031101303596510081734761007864033101516763110109438121026821794105042679810521232401044259187102714948110198706031016702205))
 (.node 1 (.leaf 23038021015457034102290896710108894781011977269100293896309875238010962314995098774582110001937091006648739101192935310285881991030250846)
 (.leaf 23131011015944083101179056710091614071008940659099642368709807240911010054476101019545210116069731011565100102136773510323772331022590718)))))
 (.node 8 (.node 4 (.node 2 (.node 1 (.leaf 23134011042230577103650244310320648761029100867102722337310298235791033777080103771470410419499441049895546105297361310526064791043522244)
 (.leaf 23156061050904058104664815410476662761052217800105838113910566220411050555183104733847610450040431045683628105140379510526845301049957390))
 (.node 1 (.leaf 23157061045508924103809893210394856381048121941105576869810517101161045134025104212536410405309811040500517104473321110468489601041326791)
 (.leaf 23213121012080225096860086809997952431010876316100860069810007747071013591215100046743609873745260991995081101948536910320041171010944883)))
 (.node 2 (.node 1 (.leaf 23217031025747789103337583910281956541024572002101945672210030894380980998756098794908310026914521015249769102315083410377615781040398428)
 (.leaf 23287111048565547103231645810273511381025677405103073995210424140041051876627105884831110591846171057512411104970955810404896431035557831))
 (.node 1 (.leaf 23300041031451116104388487410371041961035700973102544128610107058700989878318099838947410150758521015738021101660312210331007271043942012)
 (.leaf 23383111037857413101871982710164646081025859407104168796410367518231033353191104469716310488237151046651310104170131610261534191022581663))))
 (.node 4 (.node 2 (.node 1 (.leaf 23395021033767119103946188210332530231028840390103287601310285163081022172009101717490210120509831015448159103538344710451457501044873318)
 (.leaf 23396021037699012104787343110350630061031738994102685777110200151361007435809100320291410082959061023263355104167185910495611551051538185))
 (.node 1 (.leaf 23486061048960124104545281710444362791049363636105448554410536824691046252528104044700010375427041040378715105052582610554427071050377111)
 (.leaf 23514111044584766103463442410305524801028235619103048740810424498141046055583105077540510520779441052001771105228797310435404341038071037)))
 (.node 2 (.node 1 (.leaf 23548011037768086103524504010320167011029659403103032237110340679751029371169102893463210303853391034960073104416221510493022521047637280)
 (.leaf 23595111042464646103230599610273035901025520860102618633610340318801040712291105034090410533160731051392822104875726810406305781035179706))
 (.node 1 (.leaf 23629011038595860103548940110323857531032241053103412483210356838921032774019103051204910305978771034275556104248770710486791221049749086)
 (.leaf 23630011049323334104902675010428717381042388923104239329710445811281044685317104354142510456790771049196487105232815810563975791059404593)))))))
 (.node 32 (.node 16 (.node 8 (.node 4 (.node 2 (.node 1 (.leaf 23644121058636459105201035610533501821058892290106101386110622275211059243047105730643810572831711058714731106167747410607539201056795737)
 (.leaf 23646071035619854103051309610303219711036293003104373888310428310111036426195103181149110269738121025904190103533904310397450561034604356))
 (.node 1 (.leaf 23647081048161122104183328010427425221049656798105319117810520603741050131009105004820810436357021040371981104510802010496869451046148929)
 (.leaf 23778021048564597104993286810444688981043809609104187090410423134631040703232104046403010421913511046818862105125859610555935321058699511)))
 (.node 2 (.node 1 (.leaf 23865121074906100106972860010682814241070267581107432551910777810981077127953107623794710756872971077238625107786075210749754811072032154)
 (.leaf 24068061058175514106060879310608750351060063097105830373010584211111055614377105382215710552586521056125452105658982810591152571059602390))
 (.node 1 (.leaf 24275051058267280106036846210585511531059466022105950276610581355071054893812105442126210556781451057954684105902317510588959721059366096)
 (.leaf 24536061055218373105819539710658047221065575377106130248210573673871051435464104888286610421891661040421340104227206710426498381048161826))))
 (.node 4 (.node 2 (.node 1 (.leaf 25042061049116935105314951610512134001054210173105269076210500111491046895320104416539110408880441040187253104171324110483749781051288075)
 (.leaf 25277061027932607100516995210258213651042286966104445268410351586091022441334101810159910150237881010183516100732312010028951521001334762))
 (.node 1 (.leaf 25392051052033110105938755510571649011057550774105397356910503058861045771186104327946310412670671041365276104437525610539331151058183798)
 (.leaf 25646051054227900106185395710597554151060854495105790216610520761131046010442104224955010371307281032464668104378829710574770711059901719)))
 (.node 2 (.node 1 (.leaf 25647051051893997106158696010591060911060283319105533248710494878541042844049103658257310241352821025800359103066701610511802021059219088)
 (.leaf 25729051050661350106090689410598861971059493780105229955410448400381040640526103738234410278153401013676070102827638010496931631056965482))
 (.node 1 (.leaf 25810051050502254105911930710582722921059323965105334474010484145281043619410104054610410325792941017450241103388520510497458851055095804)
 (.leaf 26296061047923494105033802910512288741052512302105079807610489932621045538055104337810410417845231042005792104416928110453936431047951449)))))
 (.node 8 (.node 4 (.node 2 (.node 1 (.leaf 27067051039951249105011633210491305331049144362104248257610335680601027835107102487390410237679121024497143102777259010342921911040773673)
 (.leaf 27088041036988784104830011210435751171042715427103547644510294420501025067103102177295910176294191014118922101957263310401176431047696079))
 (.node 1 (.leaf 27170041034470162104632725610385389871039151577102611688010211059561016892391101388836110097271801006242182101252778810410502121049277048)
 (.leaf 27692041029820734104285939110436317781036544891102506926110199850181016156853101286015410090190241005420306100382154510155101661035301666)))
 (.node 2 (.node 1 (.leaf 27775041019456773102905527910363065231025454518101136610610035837260999456121099610318609921351510988349249098600873410099089631030129673)
 (.leaf 27885061019909160102619127510285581191031869483102362959410217740601016989065101058680710031342640998993967099957185910068701281021467030))
 (.node 1 (.leaf 28072041045276961105608503110523363101050104643104267580610399318011036124134103273080210315588931034209874103568799710449294901053613184)
 (.leaf 28249041041189858104955093010482448631045286327103942929710380322681034864162103283429910300450121033718731103606382710392962521046891315))))
 (.node 4 (.node 2 (.node 1 (.leaf 28252051041063128105080839910486695571045637919104153411710364776941034127936103117185010281775191032325869103324171910402530831044142987)
 (.leaf 28341041036312578104657977410453901691041809740103347493010329025141029282327102680840510224134691028071911102944057410332289901040790114))
 (.node 1 (.leaf 28342041042030314105170225910481018921045809375104010465310380831881035843283103614193310325267001038412054103706541310377982821046886662)
 (.leaf 28422041037858731104385214310444888111043542784103577630310337974431033504699103048609810287929481035365770103540428610358947071039917962)))
 (.node 2 (.node 1 (.leaf 28514081009116984100590315210103724031015740688101550820810145133471011551428100957023610074186011004308446100226944609999004291001499995)
 (.leaf 28632061017644393102451635410266006391024768537102140912510227203151017075795101563384810095256411004090561099697812510035674521009488663))
 (.node 1 (.leaf 28964041029324879103943366110381993111031304205102528647910187000231014796364101072466010069358351012138619102426172910326150091041018550)
 (.leaf 29095041020213256102940998410294731891024942406101537671110107134171006901514100431174310010803071008949272101270586110219928211030907428))))))
 (.node 16 (.node 8 (.node 4 (.node 2 (.node 1 (.leaf 29149051033014139104059379210412892191040341106103479868110312555241026502458102408724210217610111020678962102528174410302350521035193098)
 (.leaf 29206041029594584103401642310336260071034449187102648983110189475971016268760101552909110183644961025513303103397235310367114471033499210))
 (.node 1 (.leaf 29556030962955153095805824709718637830948002418094903832009520701840958763701096487001909735565850975513840095918137109504487750921580049)
 (.leaf 29565051020787687102978770910240403391025326685102170376110163965821009918369101238712710085520621011020069101270011310227175581029561397)))
 (.node 2 (.node 1 (.leaf 29922121025980776101590690210081495841006671400100504783410060499741011164528102709829110348567021037698188103689453810308690551023796677)
 (.leaf 29931011050417764103563360410259401611030607862104069701910514207241050223848104902615210480012961053011580105856466410610103351056253783))
 (.node 1 (.leaf 29949111025889050101415450510151218781010940581101558269810208480331027991416103351791610343918631033043817103095998710249659801020897980)
 (.leaf 29977121024658369101686840210107412161008348401100574193710056116791009716448102569657410319263401034652144103464995810311761471024246531))))
 (.node 4 (.node 2 (.node 1 (.leaf 30042011032365411102980394310251982991024056101102400169710260712801030229839103286745410347643681037382613103863216910364314271033229970)
 (.leaf 30144011032710358103244467110280022511027324815102608279810276641391030617290103391814310348005531035739024103729620110349463791034036713))
 (.node 1 (.leaf 30220121044161058103995659210335401591033105036103575395610419693531043370522104838413710501825101050635363104985348910454389581043602343)
 (.leaf 30241121046698340104280897610376521601036556808104036358010445890971046077718104956035610516277901051584429105160728810482905021046502604)))
 (.node 2 (.node 1 (.leaf 30242011039491218103669257410324782641031868130103218528110349911631036463764104107873610432030691044403248104458550510416382651040261071)
 (.leaf 30243121025433367102368026010193309011018189147101766055710212917241023232569102780326310297097071030650083103151956410282346301025225013))
 (.node 1 (.leaf 30255121049880141104565453010405477901038118012103900095610482776491053072162105471360610557908541053069040105295589010512289321049677782)
 (.leaf 30263121042133366103798370610326591731032360246103490442410402525471041287909104526025610473183601048334649104831390210435546401041949572)))))
 (.node 8 (.node 4 (.node 2 (.node 1 (.leaf 30306021054398532105622313710496473871052559159105297080010539786001052310271105061588610524893671054188477105827900910575224901058545062)
 (.leaf 30307121047219769104212216710372653351042597186104540853010473373511047103016104565498310491981251050188605105378131110496803551046294843))
 (.node 1 (.leaf 30325111052460430105030462210463515601053049916105286428510543436881052288922105035452210528302301054860615105730468710517362661051783542)
 (.leaf 30353111051371890104972188410457524561050103786105166445410534982281051649612105114219810521311511053628565105503045310510506231049677492)))
 (.node 2 (.node 1 (.leaf 31818011034426504103423350510325788631032829037103257191010356254641034915889103482047410347456081034921793103577568110351347351034965092)
 (.leaf 32106111047497598104041316610378980121037119597104086538810578333431058975672104576085710441989431045170931104843184610437158121041492404))
 (.node 1 (.leaf 32310111040991681103612048210341548901034693669104101370710485760321043427892104151931210420791991041038241104189592510403742331038232599)
 (.leaf 32598081038566309103626979710337774911034359537103894798810434917051041779336104039349410382313521036952815103779167010378123291037885832))))
 (.node 4 (.node 2 (.node 1 (.leaf 32866071047140073102678056110254741951027556662104435534510615255201060649941104626403110434202261045840658104450175510351250861031299128)
 (.leaf 32869111039137486103209157510291012201030308184104051249610499869931042407636103880772010382230561039289644104047415910368140361034085322))
 (.node 1 (.leaf 32965121040115523103818241210357897551036630408104046862010413680811040703520104087729410407454511040524302104104639810404510751039913355)
 (.leaf 34002060980464565098574465109872615010989330889098638066809824326200964940650095699681509470778620957382581097073738209794058320986024454)))
 (.node 2 (.node 1 (.leaf 34030061031834241103348399410311689661037113903103966575210326218671028032248102661902810240282281023878199102685266610299645361032557692)
 (.leaf 34304081045945557103066024310270968411027143510104339024810591618021059437524105019820310448017221042604504104032295810342304591032724049))
 (.node 1 (.leaf 34407111045895221103944713010356268301035265059103568617910531091221055377666104813582310452230061047032354104933380910453080921041742804)
 (.leaf 34532081050973456103433762510362400031043183765105070091710583749201065429679106301590610455295701039421132104349695110424413301035054187))))))))
 (.node 64 (.node 32 (.node 16 (.node 8 (.node 4 (.node 2 (.node 1 (.leaf 34540121047703881104544830110427069481043019312104533654810502833821047001436104893764710490791211049337821104996675410489235031047333578)
 (.leaf 34767071053932666105095153610492365561050889195105927426310659777651054334728105013320910486755411047287671105047969710535268131053208938))
 (.node 1 (.leaf 34771061044242350104549005610461052451049665968104875804810457523491043545843104295760710407731361039633423103965511510412072971045548975)
 (.leaf 34842071053788841105505671510529575141053839795105730804310610789241055942046105185689510493941761048047192104951246610514038201054346348)))
 (.node 2 (.node 1 (.leaf 34893071050141302104194983710416379471044807662105288262610600887051059607194105012771610456138211045974560104661543910473442521043893887)
 (.leaf 34897051017139251102358603410227909451023590535102052052710162618331009006365100812172310032401041006939706101260975810180264101022177552))
 (.node 1 (.leaf 34902061042724140104408603610430542391044015867104314210110429926831042262102104219205810417646591041272010104197805510423772741043552590)
 (.leaf 34906071049008158105017005510491755271049894575105094987010553322741050548080104781052310444054841042724214104355301710450116441048835075))))
 (.node 4 (.node 2 (.node 1 (.leaf 34976121044045794103978809510357723441038641558104491252110479559331045250693104552687410453285991046230293104715986410459633631042839302)
 (.leaf 34979111042664339104191477110403234621040502935103957913910425361441044913171104546645310449205621043609210104318860510423103521042403140))
 (.node 1 (.leaf 35052061028596108103085639410299839041031802260103078180810298237691027801293102706553410254330571025108934102667842410279580871029856363)
 (.leaf 35070081041412110102771315310305662801043434106105166299910485211161044948505104325147410407301351039062455103512774210340929531032273960)))
 (.node 2 (.node 1 (.leaf 35115081014959857100416198710061098591022986415102391266410226827571016793495101505457210103496111007227095100851851710072266851004708147)
 (.leaf 35127081043758474103988386710363063841038368596104963038610544994721047772372104460084310417204301039273964103954996410410555561041684903))
 (.node 1 (.leaf 35128081042674492103537493210331493051035782627104768945510565514021047165901104383799810409910021037640017103700184210377883001037716724)
 (.leaf 35186061061068475106631214710662014361066028030106480512610638847961060522161105241232710438651141042888665105084484910641538171066125597)))))
 (.node 8 (.node 4 (.node 2 (.node 1 (.leaf 35271081047143208104815919710466698891047955824104697126210475977761047457204104764970210469971681045963945104640155510463232061047571762)
 (.leaf 35277111060881376105131734610501945781054536732106171952010690014901068006621106349706410589941651061472511106546704110580438721052010374))
 (.node 1 (.leaf 35382051056381863106256565310613958661060923293105812033610540019991048687821104085141910366819831041291622104912804410607212961062973196)
 (.leaf 35389071034931519102149636710227680611030902904104285483210533274331046368376102379369110040874411015453695102132048110225453991021127617)))
 (.node 2 (.node 1 (.leaf 35587101043529600102518541810260332891044040831104081713810340179691040599438105696764110561227401045115594104231931210370803611031026615)
 (.leaf 35627051048961732105059542810514223191053442109105473404910487829631041292151103828117910347535161039911504104634705010518929431053034273))
 (.node 1 (.leaf 35661101029482358101140486910119578791028660614102426580810203003331027016524104219178210423322331030405351102743260710234398151016993320)
 (.leaf 35676081043136231104287444510427885781044745139104546032410459155581044857218104408762410426719151041190236104088491910405925341041566281))))
 (.node 4 (.node 2 (.node 1 (.leaf 35679051048200936105702338810546424091050057114104948253310450533801038730532103243013310269280911025119933104269586410503777681056974178)
 (.leaf 35682061041913050104880285810496323261048870103104942114210466229111037977119102223541710145509711016659150102764499610357634731045553397))
 (.node 1 (.leaf 35756071046558632104527673810484549501052130798105230846910490729281046730504104290310210413884101040995942104175324310440316331045872676)
 (.leaf 35803101041128008102020056010239568841041341799103678918810285695331036117268105487939910543699541041238129103761129910330774221026722321)))
 (.node 2 (.node 1 (.leaf 35822061047761006104777545410471983851050703676105194784310499949641047085365104556117110443372361043379725104484256510453409371048046268)
 (.leaf 35823071045463070104598447410458245831049772553105079428610497255241046582943104366346510415864741040155563104086154310415895741044435585))
 (.node 1 (.leaf 35863101040567376101909389810214637451042110643103961583510294113231032699548105233102410540922751040711267103586360110336004511026315396)
 (.leaf 35889061037414177103520256810421904961047140837104906472110457185611035001693102401138910177209831014317073101982755110259910931035198463))))))
 (.node 16 (.node 8 (.node 4 (.node 2 (.node 1 (.leaf 35948041027875856104449982010413438501030969736102024365910100536830974052846000000000000000000000843995534097670915410163360371040392674)
 (.leaf 35950061020198374103351570710321207521025349122102331635710208439751013769366099854284609843905110995242962099749071810040950071024044067))
 (.node 1 (.leaf 35959071031751750101104043310116069771033846266104792126410432908101035825762102381999210184468191018031040101981511610188769531016520275)
 (.leaf 35986101039815227101871229310158628801024356775104729782810433369611036474736104650215810509829471044121180103308291310312530931024430447)))
 (.node 2 (.node 1 (.leaf 35991061040734508104888197810510269171053138398104657113010411630051031600276101630774610106100271011409645101370715110255091351038577899)
 (.leaf 35994081038933881102919231810338868741043546693104803844510493846621045006152104053483610335513361027313622102490361310247772701026952105))
 (.node 1 (.leaf 36017051038327297104727362710483491461045963789104192250810342724701020507964100811096110064932051015931215102138636310395807791045593708)
 (.leaf 36019051035657012104516719210469842771045740741104053406410327324501020094617100013633009814457510998382582101173671510303977241042364320))))
 (.node 4 (.node 2 (.node 1 (.leaf 36050091023923546099896211710011556851004139813099848981809974779511017568509104125531810421953011019580344101621497110085028561003441392)
 (.leaf 36068061022876737103534940910336621781027297194102616598010247981511013956814098444285509442895020970917658098245581310103255321027181519))
 (.node 1 (.leaf 36077051024693600103689484710402262791040017843102592954910027305980962355024081618775000000000000000000000095615641409938200461023812997)
 (.leaf 36079051025704328103205184910361361021042904175103207335810199225810987118957093782879309187672300956535166098561749310150928251026983606)))
 (.node 2 (.node 1 (.leaf 36113061032380771103287230310348381571038006270103668442210368130481030158831102744899610223223341022401199102599822510318560751033313023)
 (.leaf 36128051045395863105446681910562817301054838603104992258210403515691027670639101874352310132713691014709494102012266810418921571053521341))
 (.node 1 (.leaf 36133061044228358103169921510408799791053744978106164245010535994451032406080102474066410202916131017936627102494463110402280631040539920)
 (.leaf 36139061039081243103615214610429727151053454363105528064110440211681015779939097115686409747978940999984154100919531510173910691030945875)))))
 (.node 8 (.node 4 (.node 2 (.node 1 (.leaf 36153101043891424101827880010241260931034501633103597845710396369161047015936105781023210575932501048943752104094008410323270541023425718)
 (.leaf 36161051045473587105703581410573543231057023591104909901310427188421032639723101558111710093007231010900557101498165510367034781049039077))
 (.node 1 (.leaf 36173041027042413104127255910381830491032555706102532848310196650101005011942098643579509803288860982918758100485139310183820851038951408)
 (.leaf 36176041023242035103874220410363455041028054405101589668909966178170967578418089926027408499720060937956188098501947610108430661033854899)))
 (.node 2 (.node 1 (.leaf 36205101045783000102297508010261943381035420391103886334410415684491049301464105881087510586028061050648553104268938810344142621026555316)
 (.leaf 36218071041326939101722163310175263431029232322105035824310611569891050197635103315389810286045701025640149102566222410238746751019577604))
 (.node 1 (.leaf 36234051044949344105172970610550860401056134367104972529710407513151026454386102061622610180021311022888902102590320510416646091052365900)
 (.leaf 36258111026003836100701726610079991651028452946102674995210119206981012761277102824713410410638331035234754102708214010184054671010506174))))
 (.node 4 (.node 2 (.node 1 (.leaf 36261101049893643103404164210381102511048839936104458412910451032141048229097106005024910617948411056495204104196937210425664621039675833)
 (.leaf 36263051036904937104571372310512211311050674074104291966210309778931016739404098959733109892342310990357446099010743410150742771035520520))
 (.node 1 (.leaf 36284041004200971102163706210204933111010638555100049153109738893470910996833000000000000000000000000000000000000000000000000001008296475)
 (.leaf 36298040993663075099778728710110925771015841345097834158209666635000930892870092596962109204671130915565877091523171209254044470925805235)))
 (.node 2 (.node 1 (.leaf 36326071040907114104246165110467502701049346896104757215510487657741043584215103329360510263779001024708057102330806810261881421034555330)
 (.leaf 36342041019063077103534919510339333451026869166101768884009999852380940775661000000000000000000000000000000095856254609850336741025611554))
 (.node 1 (.leaf 36349041043265126105633376210554013241050780259104206355110327239411019757106101200441410091970071015156838101987691810366661311053304439)
 (.leaf 36372101049505839103676291310421694061049059452104335748010436710371047446062105956079710591614331057059017104308979010419114901039723578)))))))
 (.node 32 (.node 16 (.node 8 (.node 4 (.node 2 (.node 1 (.leaf 36374051037755572104517604810514922731052675548104415366010325372101020863496100566427610049834770999304605099854556810119099271031118116)
 (.leaf 36392041028996635104425211110420911131035556531102398158110075314930958635288000000000009158797590920402347097449108510159970061040864696))
 (.node 1 (.leaf 36442101045934124103743653510400957681040862330103755851110353322031041730125105831403610553965581054151599104209216010386771751037434709)
 (.leaf 36449061026743160101860354510226139231034826948104019678410362726651026728572101770886510155824191015694276101731461910195798111019569368)))
 (.node 2 (.node 1 (.leaf 36454061047739010105228908510520570491054815219105081207610479562851043265481104142137310405573691038589339104123509010430009061049488195)
 (.leaf 36457051038909118104861184210458215481047122616104037128810341497161028915933102623980510242794851025945742103332507610365181951041819531))
 (.node 1 (.leaf 36498061035838479104187370810477955511050521921104493423110369915301017476879099190167209869548140998032191100458123210160116091032179532)
 (.leaf 36505071044580351104560759810487214291049798593104783351510498125501046238169103420528410308086081030099719103500961910489252561048770283))))
 (.node 4 (.node 2 (.node 1 (.leaf 36509051048576558105560882610540223701056670128105055425910457349241041605013103776823310357368931035358352103941877010456680171052285181)
 (.leaf 36511051045608949105189466210510705171054825531104887246010442933451040432400103529823010348327911034650354104198394110431356501045767939))
 (.node 1 (.leaf 36544041021015391101436832610164042031022185326101698365310121284561004546056100743461510294767851029357657102854060110237306521018237240)
 (.leaf 36546101045469380103106604210324270321036095405103936167810426240841047005057105816578010574471521048592241104370688210382165551033836073)))
 (.node 2 (.node 1 (.leaf 36562051050494061105662811810563241231057996436105353609010504904251047101706104438978410439997291041451807104357818010466128391050626688)
 (.leaf 36576051030702990102346736710338353081051357955104609634610229743310978147162000000000000000000000000000000000000000009906579361011727842))
 (.node 1 (.leaf 36613111053133832105201628310510626951052736087105286064110530996911052856113105677680110534605721053721584105415611510526999501052159454)
 (.leaf 36631041027997793104400669810422462771031596134102090212610093146990978394110095995888009544702870961566953098929519310157973181040002017)))))
 (.node 8 (.node 4 (.node 2 (.node 1 (.leaf 36686071043521010104460726310461009801049726357104722196210490559871044729881103769878810338852481032377219103400479210427899941047031546)
 (.leaf 36691051056278280106384872310620676921064481999105836254910540176851049851823104694395510475828511044207323105014566910520619631057166133))
 (.node 1 (.leaf 36692051044051612105028470110495003001052038951104647169010422563331039971809103737341610380908631036657207104103965610404488631044061466)
 (.leaf 36721041011996864102623150710259991221019636183098616456809173883460000000000094957567909963248350990091941100193744010078829751020134843)))
 (.node 2 (.node 1 (.leaf 36728041005295000101028022910101827551011245741100182479110052126431004978637099382912709912228100988233453100431038810069825581009290490)
 (.leaf 36730061043288228105367838610529014641054159226104991816010442361141035230510102972493010233281251017577968101591432410205080101041483862))
 (.node 1 (.leaf 36783071031849116103092242010344384551038310279103306572910342893851034443488102420810510202432821017509637102774913610313893421033967887)
 (.leaf 36787051047480079105259237110512872291053880393104947804710450369441043725384104442768710421602221041385053104200444210429207221047928416))))
 (.node 4 (.node 2 (.node 1 (.leaf 36789051042805731104966681010499027221051327620104485154510408192141036763911103635194310361937881033954371103680380110375842511042543505)
 (.leaf 36841061042419207104561897010487210661050260918104981876610465714701041258716103692099310307823851026081884102812141710337394731042813609))
 (.node 1 (.leaf 36844061053023998105831796610575621531059180121105795759910550469491050498165104934148010476740661044373893104548355410478779441053367413)
 (.leaf 36868051030339707100552407710215646381044390773105255787110300676790962270953000000000000000000000000000000094651265310136856221018800914)))
 (.node 2 (.node 1 (.leaf 36880091058193904104197427210479008071058416594106190388110652692201065288313106932512910635002471052701542104177759810380085111039806997)
 (.leaf 36909051026176562103504853610429621811041754237103352576610146348580938595787000000000000000000000000000000000000000009764706871002553221))
 (.node 1 (.leaf 36942111051297230102795887510253285261042280794105822595510609334111056248950105568312110541602531056792431105232302210410322381032487133)
 (.leaf 36944111048682973102569689010295506051040385951104746107710490020961048957724105750699210573260321057391329105032134210403702521028415706))))))
 (.node 16 (.node 8 (.node 4 (.node 2 (.node 1 (.leaf 36947111050851958103971472110415304191046565508104409738610464765011051873249106022412910585287631056576882105353322910490245051041201255)
 (.leaf 36965061036827000104032252010406698231041634973104088337910412134571034777329102977386510258279581025460386103233897010362737071040990380))
 (.node 1 (.leaf 36984051049579762104356231610495412411066069405106765299110495675651008346531095010968209521444920976151107098443891810310812591044847491)
 (.leaf 37008111040779002103124956510310913441034069621103561680310348598621041431533105326189610463595801043350430104087873210371972951032735360)))
 (.node 2 (.node 1 (.leaf 37010101046943636103855623610417318961045957992104473197110435486821052551175105572746110507696291048133941104542096210427464641038435358)
 (.leaf 37038010000000000000000000000000000000000000000000000000000000000000000000000000000000000000000000000000000000000000000000000000000000000))
 (.node 1 (.leaf 37062111039349010102748887810278808321029668498102723479910291114431036817693105094649210490782601045067966104095217510367598121030872611)
 (.leaf 37164051035471184104071046410487818131055813469104124628610152970200966594690000000000000000000000000000000000000000009063565841032335423))))
 (.node 4 (.node 2 (.node 1 (.leaf 37215041035123890105305490910481850451044293548101843040209910865420948252174092162051109256435470922241044092079131309711195831045804705)
 (.leaf 37264020982511244098435827409569767280958274365000000000000000000000000000000000000000009584925030986481470099198115309901436471001450283))
 (.node 1 (.leaf 37285081064916711105119474410579492081067132305107201786010709277761077048551106817611710592328721055134274105037518710526067021048597777)
 (.leaf 37343041034192581103714853510351113961035171771103325826210318322891028777311102864916710308877681033707480103675625310374737051037995984)))
 (.node 2 (.node 1 (.leaf 37346111059655497105425886410541756721057924659106261789910647025091065181641106336768210578465631057286827106134291110590462191053769740)
 (.leaf 37414061022031456102336031010228250781024316987102388365410232610011021216276102123572510204968811019891677102040747810203204291021781683))
 (.node 1 (.leaf 37554071057201513104227224010487132781060438912106761272310680149001066743260105367140210503294311045132710104104514310407203641040276102)
 (.leaf 37593111048277330103675192710359245791033756108102790332610351544091053070656105787104110570562791055981014105207986810443111001035003447)))))
 (.node 8 (.node 4 (.node 2 (.node 1 (.leaf 37597071054801377104058543310455135601057785129106582068010659856881065636763105041632010517167231045093943103996848810377718241036873336)
 (.leaf 37605041035509000103796288310361463201036548867103455515710330417891032177064103274686710334015261034989947103788276710382892121038365606))
 (.node 1 (.leaf 37654071051370555104025944210447202071054886756106132364810624668191059179695104662002810494998701043111486104078424110405763441035659249)
 (.leaf 37659111024826063102093713110167206951016898452102450089610325392891030648828101278694610116032231035599206102874791010201019961016925232)))
 (.node 2 (.node 1 (.leaf 37708101050445706103362539410392544451046962495105369516310597322461061097069105168479810565564441050474680104113014610355982311032506953)
 (.leaf 37809091060075687104766778810520076301059101041106674068110686774631068623287106146858010637654671058676010105170333110473480281045683915))
 (.node 1 (.leaf 37852111048822830103456165510299584011027775677102518057610252344961051816633106097247410601499871057350924104906020510419617091038431134)
 (.leaf 37952101043987325103179116010257710821023498811101905961110160994211040266207105738248910587396671053036217104292623910385727011034954873))))
 (.node 4 (.node 2 (.node 1 (.leaf 38010101044426637101788027609977238410960849531093760079009557156051033346203105686450710658873271053468946103512793910326206161027504586)
 (.leaf 38018101059429222104600566110443637091045408616104769927310588914971066489211106905472310693468361065495223105918468510529956751046937511))
 (.node 1 (.leaf 38051121015074605101389625010104924291009438709100688154710038882051000509680101960520910222125981020769455101809042710156667361014409856)
 (.leaf 38054101041785150102480390710142923820999505629097663541909912588151033972942105314715310597759981051599672103918065110340415221030462485)))
 (.node 2 (.node 1 (.leaf 38102101042396137102027689210120856051003086436099652873109942389081031828597105753392510614730901050028062103607105210292172911025258902)
 (.leaf 38109111032024508102452753910205731561018203595102125638110250075351035358905104203841710302335981042425468103477346610250005321026926161))
 (.node 1 (.leaf 38116070986461601098232233609757605780979181553098395252509931961480990374826098205423309687600520980497558098643838509971388960992330606)
 (.leaf 38190101016549496094019778108319059090000000000088113827008824055781017086906103260282910358586581023867583100339669209826739840973809302))))))))))
 (.node 256 (.node 128 (.node 64 (.node 32 (.node 16 (.node 8 (.node 4 (.node 2 (.node 1 (.leaf 38194111047761598103779024810331089431031112196102657836410289674381044789442105602639710597106351057177799105117976110456412421041473209)
 (.leaf 38247101035137880101167820410048048211000007976099464660309912235451028526099104951763010545184971043113178102868596710204113101016490670))
 (.node 1 (.leaf 38297111052894233103804673410338570471035038156104193290210513846651057014069106080850210649718821061392627105595809610456530501040950598)
 (.leaf 38298111051048520103348471410281243611029548454103656466010481521381053601205105846387810633093131062207814105546959410415169161034749374)))
 (.node 2 (.node 1 (.leaf 38337111043875046101539964610029449501009650774101601712610345430111041361539105713861510595905591053103615104507392810371722111023413082)
 (.leaf 38347111054416575104671003710457252381047538281105110534010553550331060043371105925522510571293531060069369105766013710509505921049245285))
 (.node 1 (.leaf 38389111024865689090925345500000000000000000000000000000009998460091024849937103459165610439991141027199725103454837910007809870964889035)
 (.leaf 38425111048141227103110562010239826161018744203101835911510304471831042538834105970816110646770321055396587104935321610404493501035287241))))
 (.node 4 (.node 2 (.node 1 (.leaf 38428111055281412104175027210363944171034078418102997176610286316091041034677105747330310661440381069597720106581751310544842351046395108)
 (.leaf 38511101013520488098388441509790446760976457737097291693009687722400989532923102341444310325767711027834991101015816809937276620998310896))
 (.node 1 (.leaf 38608121047149576104218698310382828941035802516103292405610331714381045245361104828452710499561601056469799105704070110505272261045776849)
 (.leaf 38646111058877672104085077610374398601041692307104914720410587583351065498444106631984010683825021066827990106234044810537751341046073672)))
 (.node 2 (.node 1 (.leaf 38682121066439014105171035610481280041050463719105836842610665254711070732550107034162110737837221073630283107164650510673627321060562324)
 (.leaf 38709111041414711102470142610109095661002007573100077059010020730101030729268105706368710566938961045115668104543667410402450161032980720))
 (.node 1 (.leaf 38826121050643519104271257510379476071035516820103468215410397983951046369283105001895910544599891058913518106321885910561958981049269280)
 (.leaf 38834011027297704102557709410216808251019707915101686320910151190231012038314101337110810348947271040190278103377287610308197811028071235)))))
 (.node 8 (.node 4 (.node 2 (.node 1 (.leaf 38836111033691423102828298310247569141024055649102309345510245351621026269965103348572210448380801044803980103636032010330412721031256864)
 (.leaf 38839111034958267102590698910213464631018844469101541517210141202141017891617103204755510488523891050553676104057035010331530701029741371))
 (.node 1 (.leaf 38867111065957116104989636410449239451043188182104299065410601694851069930283107438601710760154651075302219107090519010600148181053423536)
 (.leaf 38934121055079274103741397510293720501019166944101511189310340559001060270203106746540910645184351057414546106045796510595649121048925146)))
 (.node 2 (.node 1 (.leaf 38983121051552140104285894610383150171036301572104440868510546248931057326888105723288510573633511056004668105568931610519254101047214614)
 (.leaf 39093121068837332105988685710587207381061967602106640515310719947241072910662107185338610719284761073853608107350211710697021131065468533))
 (.node 1 (.leaf 39293121054587795104644832510471997711053883068105918872310597300601058711577105841940210528004261049361099105241524510558383941051114168)
 (.leaf 39300091046636704104138247510430555461043398254104530852310534440601057066591105394216110468948551040877062103741278610349281101037781222))))
 (.node 4 (.node 2 (.node 1 (.leaf 39408061065633564106343481210624686931066173947106758942410672093051065248537106462340310625277671063719511106684077910667440581065974249)
 (.leaf 39436081061399571105896906010596761401064328819106522430010632239061063107056106400763910595792561057787696105984189610611191431059929937))
 (.node 1 (.leaf 39486101070099652105061073010508043771051253992106675963410759153951075944145107836463510811975601074414101106820210510627096211053607216)
 (.leaf 39619071044708212104155595710381312351033466896105008372710552597451047230906104418838110427370191036559513103593878310482800001046548346)))
 (.node 2 (.node 1 (.leaf 39871091039318946103311297710344851721039634053104185267310438442621043203080104247557510410121551038341511103611579810336594021032639909)
 (.leaf 39968051062673551106981993910673416051068742236106622630710606811771054857290105166246210477794201045680462105642687310660658111067795563))
 (.node 1 (.leaf 40009091035487301102843140010332230631038883802104139932810419632111040482463103867958810358334061032878240103024138310267242201025851234)
 (.leaf 40042061023743770101564402410302393891038414676103724177110246657261015941705101187891010080026231002968716099989926110001726701010004206))))))
 (.node 16 (.node 8 (.node 4 (.node 2 (.node 1 (.leaf 40306051041182290104876892710488423081049697828104370025410349029721030962487102729951610241002301019739938101891882310408045491050165484)
 (.leaf 40341041031518257104354861610456024701040600948102749059510236417761022056433101862396410154702711010916241100795625010040935551028968311))
 (.node 1 (.leaf 40392051058092495106954964610663873591066161397105926184410533720811049100306104537409510417905721038426883103978682010503926101063711583)
 (.leaf 40829041051164545106423317410552754321056008187104891444110434506331040112187103695584410350120451036490717104085484810534438911060292315)))
 (.node 2 (.node 1 (.leaf 41061041024016106103275090010397722921029527122101825063110125743791008397909100560218410013610991000020169100869647810155611001032579860)
 (.leaf 41079111058150523105346375110536224381053649570105727313310604232481060421482105951903310589366361059664721106091674910578250291057011453))
 (.node 1 (.leaf 41206081030243437103368712910331091491027769420103369797610375188111033671824103526778710245012371021030909101781100110233192821019273985)
 (.leaf 41215111056313053104892300510491381511048027640105363576810584732691059286677106140136510607702571058422031105938909210538771811047789947))))
 (.node 4 (.node 2 (.node 1 (.leaf 41272111060064566105169268610515364101052477100105901100910621410571065103151106676924710654308291062168092106297275110582064191051392549)
 (.leaf 41331101017910291101461965910174846821012658778101630501810185195681017444392102637342910236854091022080773101503605410142591491007887516))
 (.node 1 (.leaf 41334011033903286103329747410182912421012383257101605427610182807321025018326102958517710318024141032861441103542382710457862821049179512)
 (.leaf 41521091033988147103397288110358454181035443377103512016310352482461035504652103495772710374452541031018573102995280310323027951027666782)))
 (.node 2 (.node 1 (.leaf 41537101017235272099979453609945662330994005879100913346710044369441015393135103069462510319641681026502024101618147410043276530997457559)
 (.leaf 41556011058772287103205026010261832141038018141105039734310611121501060237443105879842910580983351062665959106748263510683822631060319184))
 (.node 1 (.leaf 41602121030395566102286634910164537701015637333101182756210103683591013258946102628852910367701751041443507104208064110357592451029408384)
 (.leaf 41616121057476307104487251510419598861042289890104804991310599536251063589437106339771810609245981060293127106139974910588838211051986085)))))
 (.node 8 (.node 4 (.node 2 (.node 1 (.leaf 41659121060879872105150973510469974241045779763104961069010610851881067208707106807868010674121401064960011106396368210611757361058062717)
 (.leaf 42455111040491970102606409210251124251025520963104488732510548081751043723510103974290510380465371038908974104054256810353620451031813267))
 (.node 1 (.leaf 42678111057612910105032384410484080231048533224105224733610670598671068472998105689125610546469551056560911105846515310532408701051421662)
 (.leaf 42679111044120304103657326310346356671034671219104063247910522322811053555119104512316510443067691044255848104529403310421205971039946191)))
 (.node 2 (.node 1 (.leaf 43043011042916054104280074710415347631042408677104332926710435164781043204970104344007510431828861042636467104306143610427662961043110589)
 (.leaf 43139011048195852104742114510447589721044927619104448821610475189151049097348104918507710495555681049235489104961651610491421891048801491))
 (.node 1 (.leaf 43539071045467027104622984710451842251047656873104743804010470690661045858871104514125710441483341043297492104380354710441414451045635323)
 (.leaf 43853071050411505105158044810518515521053889809105360099510528739131050986942104967401510476343371045677426104658761110475529101049602239))))
 (.node 4 (.node 2 (.node 1 (.leaf 44131110999258430099498282609927146690993260374099469948210017032651003151052100327437410016178311000325072099992603709987387170997850512)
 (.leaf 44175061052588999105450583510533179881054446893105347220010530979861051844115105138692510507465351050392932105159128910523669251053898366))
 (.node 1 (.leaf 44215111055391975105030588110468681261047721814105337289010625236601059506182105819701710568218141054741128105578200510551898861053059235)
 (.leaf 44243071059911814106428867710633310321063787381106265718510626819301061610075105780108310500627661048511054105133478310594823161062884643)))
 (.node 2 (.node 1 (.leaf 44285061033960960103598023010349778571036031868103506411910343854971032959855103267085010315494531031195014103285542210339661031035468706)
 (.leaf 44287021048610128104911803410474001681048307571104723026810481702251048509987104894263410488572911048418740104883443110486931961049129471))
 (.node 1 (.leaf 44288021054524044105514859910523501401052396283105341312110574133151054816033105472442010536810911053006291105491948010556619271056309121)
 (.leaf 44326071050875744104896627310520568361056154710105798738910590383551055469713104546809310394136271039018035104104705210484605051049109687)))))))
 (.node 32 (.node 16 (.node 8 (.node 4 (.node 2 (.node 1 (.leaf 44400081019296387101033462810110681731026084917102622512210271732921024047343102031262710170325921014322723101337001610118848081010471821)
 (.leaf 44624071059747498103731261210414129171058604709107259428610705920821066639052105909930710578322091054810003105372341710510656591042705846))
 (.node 1 (.leaf 44629071057841441103980901110435474101060772569106947865410713605831065152810104926457110400220761043337229105194743410503042841044465589)
 (.leaf 44648091038586547103467219410348740511038998793104107908610424970111042249529104132177710391044671036864703103615556010345759101034247651)))
 (.node 2 (.node 1 (.leaf 44660051051438750106027303410584720471052801687105173740610473060201039495417103142721310208415291025354745104939747710567491731061520320)
 (.leaf 44661061050655824105948390010581303551055045446105452758210519503661042838866102765730210082379061007425523104105103110506462791059051865))
 (.node 1 (.leaf 44724041031303676104814594510444175651033780377102381999810098562080965174240000000000000000000000000000000098060900910182349311042038958)
 (.leaf 44748101046714184102573215410263758871046574857104794389810374179781037150442105729574710614641801048861575104239574410410285681033543253))))
 (.node 4 (.node 2 (.node 1 (.leaf 44768071051653485102966796410336496261053275321106503815610660098381061940321104807268510268957421033666353104179566310404566651034482163)
 (.leaf 44799061041188517102597481710305103221046968751105893938410536108491040146349102643924510199961021016532667101717884210261465741032142241))
 (.node 1 (.leaf 44813051055624548106538778910665049241067432792105980054310534636771042749236102980391210249365461024131360102525719210462558891057368324)
 (.leaf 44828041045471093105659916210555077241048673787104521785410419335271032115312102027308410077779961009272220103405387610454275811057021894)))
 (.node 2 (.node 1 (.leaf 44871061047325744104933831810499879181053427025105225059310512067731046771477104320199910416627231040108907103902647610410305051045945885)
 (.leaf 44901071042509804103972089410428560821049739918104587461710501585001045458038103853183610335084541033214777104018761210396084011040335805))
 (.node 1 (.leaf 44909051028660996103915514910423616311041947046103412310810243108161007897297098259367709790887040989084860099852571310083992661026586977)
 (.leaf 44916071051199565104471478210501742601060143973106551892010618836811053005176102727965810171562461029123492103765257110418996421044501041)))))
 (.node 8 (.node 4 (.node 2 (.node 1 (.leaf 44933051045370223105121981610604152331060681751105307531010387181451017677730096810610209445979170992889270100001387210181268661039896327)
 (.leaf 44946051050794176105564980010572930961065138909106317157910490325851026820739100026870009916438451006794909102358817210425860771054961253))
 (.node 1 (.leaf 44996071042554681103084526710383425171049634261105171288210571134331049049885102769830110264084781028773821103320078110339265571031853710)
 (.leaf 44999071038450192103573224910386491521047726240104181377610439841341042011731103361690210293618041028664547103248391710355039121034282020)))
 (.node 2 (.node 1 (.leaf 45000071053478620105158090010544116581058913037105724109510598058271056839470104898844010438289211044657908104953363710529234311053620396)
 (.leaf 45001061057002597105658425510588487321061105020105908887610597603571056842154105043619910485692561050168054105150856610588196421058458780))
 (.node 1 (.leaf 45003061053284365105841256710592350281061809323105880993310566365951051519384104682147710429315111040433735104140726410448324561052927915)
 (.leaf 45008051034441225104693043710463118441045264739103672186710265702511011216652099152442409780628930989825201100333327610235132281041636318))))
 (.node 4 (.node 2 (.node 1 (.leaf 45012051040714699103348089210424714531059187795105848431310339145501004813624092461594000000000000895307219097366647810092491111026059010)
 (.leaf 45042051050513163105354996710588558391065589164106125634410445840841019158885098948385109899607231006015948102056386210463998721054585786))
 (.node 1 (.leaf 45058061058472194106284896810631757101066219674106212911510587305321055220719105232391110520539791051022183105356437910532276931058095616)
 (.leaf 45075101056248796104540886110485851261051122857104959543110492640081048674782106709436110652417421066212189105453676010471847931045285528)))
 (.node 2 (.node 1 (.leaf 45078041007195893101918702510191237251016161358099484747409967884800982016746098384637909822367500968926427098984884110076485411013837921)
 (.leaf 45142061050378610105131919310527216021057424716105465247510534596571048716352104332216410407529171042713359104400100110508062331052436264))
 (.node 1 (.leaf 45144051052496316106014168910588233561060486684105696363810510089751047242641104534862810442629391041176640104361033510483096491053270127)
 (.leaf 45160121039358317102502212210315589431035747192103089643510285513371023724431104091869410471325801049834591104802331110410169361031694349))))))
 (.node 16 (.node 8 (.node 4 (.node 2 (.node 1 (.leaf 45169051060440421106787778710669229161068801864106326973410587965641054885406105189058710523385631050010554105500278310563621591060934411)
 (.leaf 45185111038720554102426496510272866991029217801101948125910167455011034412689105058578210521496801043329496104119338110351240071027266118))
 (.node 1 (.leaf 45218051051820244105764685010567946011058744311105422771910500204831048970963105006155110472077071045671763104646197210478552241052164176)
 (.leaf 45220051048257135105446589310546979391056646624105019385610451632721041967268104157863710413749891039444688104177329810419208271047786668)))
 (.node 2 (.node 1 (.leaf 45275111044656621103253844410337734031037662963104023114210411041981044109573105838887210519891041048672851104486120710407877621034402398)
 (.leaf 45279071035462642103551683010395751551042217486104207250710410453901036275908102626509010233971631020654657102499413110328479321039282066))
 (.node 1 (.leaf 45303051013311771101586742810153760491016529793101505558410131410861011974888100917579310066812931004764068101542006210155975471015263862)
 (.leaf 45339051018400396102166723610324549371034464598102388989609939954230987777053095358617600000000000799790258101708684210163125051008981375))))
 (.node 4 (.node 2 (.node 1 (.leaf 45392071031239576103179226110332997561032933577103695007310363371131032850352101999059010168489941018187386102887735710297609291033933286)
 (.leaf 45421081063991197105143939010573379541064349537106937445610695342791076264430107087344210568748151055316788105329672210521589951050088255))
 (.node 1 (.leaf 45464041032146370105001666410481147491039911676100852394509145071270000000000000000000000000000000000000000000000000009232818851038507422)
 (.leaf 45476081057716217104882121310509360571057102917106103049910619924391068556318105959028010567926471056141045105277843710497044941048047879)))
 (.node 2 (.node 1 (.leaf 45538101034673874103216015510284616801020286565100351509709981715421004989910104634714610538832811042462743101688964110104459121024345114)
 (.leaf 45605111056355256105132620210496760181048625975105198454810572562751062398741106074157310582275081058544174105824922410549814501050621536))
 (.node 1 (.leaf 45610101042471505104068611010336106851027115959101415014910091614381014462899105045438410585681041053184447104003012910331691881040484180)
 (.leaf 45639111053227139104673515110446975821042220791104768765310526557761060995536106072308910559488281057384160105651929210512167791045925326)))))
 (.node 8 (.node 4 (.node 2 (.node 1 (.leaf 45663071059210093104868298910530038501061693676106880286910698558671066418603105811324710569431881051293062104875663610490136081045009477)
 (.leaf 45692111041967553103521480810237425321018121141101132687510073858041018300053105005323510587066421055125420104271908610298951961033190660))
 (.node 1 (.leaf 45719091054804370103884615910427557101052425255106262537910656709641066935927105514689710552742431049133069104172807010380653241037004162)
 (.leaf 45746111052032417104036470910348679821032591038102931377710303450691052153026106552139710635356491061217341105413397810474193091043486960)))
 (.node 2 (.node 1 (.leaf 45748111059724186104055985410403523341042671997104478470210503381221066161267107392117310711708221065491712105993061010519825441043900651)
 (.leaf 45777111052894179104042457210350215451033219373103052225510314544571056968113106575413510650662991061719676105404876010476054911043492186))
 (.node 1 (.leaf 45780111058389380104972645710447187121042507978103879948410452310631059293633106317109410678603001067632977106551749510583431781053163808)
 (.leaf 45826101062194883105162372610512806551052052855105220601810629297511068990534107154055110711275951065901865106125988910572034681050488233))))
 (.node 4 (.node 2 (.node 1 (.leaf 45856111066623460105360368910459256971041449614104867697710585670811074106038107689571110757765741073438128106917565610634450981058387063)
 (.leaf 45877101057504225104410462710420101071044286338105164539710625978211065962691106358039610663770711060545744105442340310491976991044672016))
 (.node 1 (.leaf 45903101063629569104097147610335965051038430704104097612810461414181068884687107660861110774317181070769512106264917310538391841046335507)
 (.leaf 45955101037579404098947147909735536960957149628094060877309387090951037592610104883420910594232131044454728102944266010074313260996205329)))
 (.node 2 (.node 1 (.leaf 45962111045441080103591904710323180621028321594101736282210086594021026586482105032300510576864531058824266105351725010439820401039893570)
 (.leaf 45982111048888263103416689410320343381026301926102325252010201644431030077976105603888110598362921062837855105775362110433196481036919109))
 (.node 1 (.leaf 46008111059667054104620468310417967001039263547103480106910322785081049320999106826463210720420711073626222106680745110547868001049881848)
 (.leaf 46028111060647522104499274810413667521041744095104863843310589275621065618560106921335110728455011069055487106240937310527495021048669415))))))))
 (.node 64 (.node 32 (.node 16 (.node 8 (.node 4 (.node 2 (.node 1 (.leaf 46029111047846712103450886610302144471027344593102395299410217239151044083283105638567510570437801059940701105628431510439506501038751945)
 (.leaf 46054111055840879104286720410409593721040712310104449251210528056941063465127106294091910606786021063739837105997556710508675991047368987))
 (.node 1 (.leaf 46098111044682363101996458410156133561013102134101205593210367918721056003945105264899410516379771057555527105079538210323628771024074928)
 (.leaf 46116121048745904104219015510365442711033603809102993151110406440601044693109104486660710529668071060996298105751210210499498791046103513)))
 (.node 2 (.node 1 (.leaf 46153121059690256105342564110480050691044314968104110692110468425611061666718106003002510620973931068555424107038448610643106761058237145)
 (.leaf 46167121068064368105720567010540519841056779345106230569610691310161072017379107192526310742154061073759298107342670610700075391064939796))
 (.node 1 (.leaf 46172021000131887100050693409971945810995527434099222349109901752210986236582098757923210022786941008288617100802888310055515291003201158)
 (.leaf 46184111055310224104886343910455321951045773008104432706710438067251046070725105869737610659025591065445622106223247210525521101050131153))))
 (.node 4 (.node 2 (.node 1 (.leaf 46186111053644167104022620210346967751033521568103478006110504109111060998526105823905710582923371064168278106241115310506647241043630910)
 (.leaf 46222111072371636105724124010524046701054779762106247654510721393881077171305107767698510804609411079438979107651563910714117631065139127))
 (.node 1 (.leaf 46273111054392562102717991810143807631009733264101002572910153220071048237936106936419210699942241059305548105807739210521823111041347869)
 (.leaf 46421111042807714103111813610269594131027207472102962377910323667561034890965104962022310568554691056454231104376185010358456981033943229)))
 (.node 2 (.node 1 (.leaf 46481121037757352102961244310261365021030713219103120678210360400271041811149104249805210412056521043601113104303696310378538931033393369)
 (.leaf 46486111065995493105600384410510162381049342788105030739910614271001067527563107216418210743554191074390657107260435510639196741059198985))
 (.node 1 (.leaf 46594071068046087106539595310662350591071617895107367018910707180191068307530106799683910639923431062572287106759506810694025841066978377)
 (.leaf 46722061055097540105117728310512308481049347475106087224710643391021054945315105139286310499270621044814095104884790010593023701058218841)))))
 (.node 8 (.node 4 (.node 2 (.node 1 (.leaf 46766061059393054106286516710608465921062067861106206839610611324861057984989105479863810513408471050288566105714826710612446101063697348)
 (.leaf 46784061065192591106853472510670760981067982233106689819510664925571061677446105845239610577495451057549974106249814010661743471067769897))
 (.node 1 (.leaf 46822061049913212105152398210498841961052153313105892335910553200011046275989104227800610403079871037933768104105894410492963351053967848)
 (.leaf 46919091034571282102198506910255191461035012276104362444210425385001040125790103764008710348545441032165125102916130410258169281024023999)))
 (.node 2 (.node 1 (.leaf 46937061024856310100844652510225632721036819185104076100410297778261023679965102061470110167166791010472030100745690810045611581006999084)
 (.leaf 46966061041308047103890082610353992221041986181105475353110445999371036955081103435353010323034821029762014102847463510416845871046424298))
 (.node 1 (.leaf 47027051047138557105586943010585219151057875024104996681710435127471040486713103789857910352328341032608847103045385610290581161042449419)
 (.leaf 47208051057102440106663976210631771801064089908105782542210508802851046424254104297099910399083701035387123103871504010581450291065341066))))
 (.node 4 (.node 2 (.node 1 (.leaf 47233041051806067106263181310564935501054268256104572252510394476451034746661103212130010278631041024497703104271082110598188031065517353)
 (.leaf 47265041057384289106679122710625691071063206447105476493610488878281044038958104114292410371694671033623801104508776310615546001067509681))
 (.node 1 (.leaf 47331041063754473107304755310678618231067934492106272699610581047191054185818105097627010487177811050857614105933911610677106241071120994)
 (.leaf 47388041043711856105410656910607684421049632929103874343510294825171024745346102188435510174196831015178121101461387110363993491051139522)))
 (.node 2 (.node 1 (.leaf 47481071060836879106605059110671047761064692253105911954810593399981061596595105791271710548371211058537712105932484110576612711060352443)
 (.leaf 47627041042746632105123549910526340001046269611104050301410329664771027776394102637333410238636151029061663103704816110443826501052828141))
 (.node 1 (.leaf 47641111062297634105785216310576934241058809347105747450810619492911062977291106641939910674593551065896527106681841310611549421057886120)
 (.leaf 47660111057385306105215918710525970061054741271105168002610572062801057882852106075905210628614761059783190106001154310556356571051637758))))))
 (.node 16 (.node 8 (.node 4 (.node 2 (.node 1 (.leaf 47691111066043670105708115510575976441058016304106427610010672407171069700557107258518210710807151068415408106824778710639081451057508693)
 (.leaf 47800111030103829101769959610250839831016882267102630412110237882231028601699103842473910411952221035936099103143653910266533021018480914))
 (.node 1 (.leaf 47864121051364440104044356110341013701033876539103514167110411979271048489506105765705010601239141060922869105942199510531414651047673298)
 (.leaf 47935011065915691106361219710578231081061730055106353354210663370011065846384106448184910670127521067969291107080506310674846651066559724)))
 (.node 2 (.node 1 (.leaf 48380111041051579102928708510283085801025975721103226283010475064081053542179104715634410414767701041267630104150235710347254901032805629)
 (.leaf 48494111044745440104008383710367470641037016179104451345310536607591049343650104715795910449360331043978668104505450510432787351041964485))
 (.node 1 (.leaf 48576111051667485104571311110434431581043288616104650521410614497521059381730105236472510513766201050891859105228170110503235971048245031)
 (.leaf 48577111049860619104045006210381621771038647439104607371310603038621059519220105037167010501348311049915996105022126010451531631042208311))))
 (.node 4 (.node 2 (.node 1 (.leaf 48711121049634711104756268510456540461046420177104858143110541487931052548649105035529210495031561048713763104979875010499252501049358992)
 (.leaf 48739111057404678105468478010530614701053322129105638479710628460171059473457105765587610569793441057185152105825181010572568671056139000))
 (.node 1 (.leaf 48870091052725945105280423910515425651052874264105346094710535604441052794229105297455110527528461052184373105260267510523578761052802332)
 (.leaf 49223041051476792105387138710517732211051881906105024725810491893741048450819104943924210502005971051103239105312353810538317681054546569)))
 (.node 2 (.node 1 (.leaf 49341061026365598100570233010010397401005993674104875730710359394411025445213102158607110179238651015262163101316452710103661591008219118)
 (.leaf 49412111057303547105030893210467797521046111759104654829410619678691067155852105928244710574052441057810902105960223210571758511053163197))
 (.node 1 (.leaf 49413121053894601105053661210476098031047178004104739452110572844291059794645105750014510559843961054750742105604257810544577311052743376)
 (.leaf 49496111061081021105617709910521115101052019463105532080410666819641067034182106579420910640216531062094126106252959710608773601058744806)))))
 (.node 8 (.node 4 (.node 2 (.node 1 (.leaf 49568071062194786105783574610573868141059673594106543433810708603051069931571106148896810575048881058321088105889891510600647441058769896)
 (.leaf 49609071047013844099834840709934091911032738209106233924510679668421053978356102062661509912098731018239707102205281810144603281006453142))
 (.node 1 (.leaf 49749081052809357105355351110523553561053663728105359891610543572461053470296105304318210521084981051190207105161304410517801021052978200)
 (.leaf 49775081052371580101604410310153006491044952346106270082110655684081065485276105849465010492883961043694986103881571010319933931020591988)))
 (.node 2 (.node 1 (.leaf 49783071057005087104653178410459926081053301598106366776910701677541065946230105429899810498191411048568539104860093110472014101046908353)
 (.leaf 49784071038203620103132511310331359451039312306104700805110542292521048442213101209504409893533070999117332102366196310313821311032214048))
 (.node 1 (.leaf 49815101057866696104211706010390572831050498656106317245610575306321058323504106697843710675665021059558720105387256310518956211046150022)
 (.leaf 49821071040591482103166538110328865091042624924105207589210561992841041547824102514330010193606571025538659103242374710328528911031927137))))
 (.node 4 (.node 2 (.node 1 (.leaf 49834061057848322106239864710629354801063460534106471558610582862161048855233104148589910352861001040821638104904155010597432461064837177)
 (.leaf 49859071059611912104126760810441310961059401635107375854610744657391070686202105136466710362639601035757609104261870210470106731045373505))
 (.node 1 (.leaf 49887101048976482102916405410307800021048689257104936429610394244721037461155105843391110638552211050854928104493283410431427411036832484)
 (.leaf 49888101054844907103451677110314037831049265417105856020310503294711048971041106335051810696915181058056985104977622610492183091041909166)))
 (.node 2 (.node 1 (.leaf 49931071030621036102578360710285284951038478859103667731610374316631034113705102872403310237783551023827991102526469410215420911022312163)
 (.leaf 50009051056552373106045951710621465411069547272106737218210538698481038690343102204706010170401341019283589103079454910491234701059924009))
 (.node 1 (.leaf 50029061058540637106124255010617218531063355551105986986910590127721056064713105429287910529098301053301991105343518910576544821062216745)
 (.leaf 50031051054828382106227428410625753391067414233106541608810495279271022153073097974126509635473691014423275102822758510478679101060652865)))))))
 (.node 32 (.node 16 (.node 8 (.node 4 (.node 2 (.node 1 (.leaf 50049091006673424097232036909793380411002004102099916619710071496481017925473102125314110168676511002733852098192702109556382350956378622)
 (.leaf 50051061058398856106346784010647072071067099749106365571010605370291056696841105116188910484144671045015557104623995710502163721058291333))
 (.node 1 (.leaf 50066061060183432105991538510627115511065675037106328017710638427561059681227105432751210516617581053551031105563923610627085491062545701)
 (.leaf 50068061057795291106123654610620187111065335963106173256810591446371056005386105209384610504390631049048597105201701110514697281057644422)))
 (.node 2 (.node 1 (.leaf 50081061036425914103181047710333524621041603463104621128210444639451035640397102852221010340259181031866796103158754410324161681032149882)
 (.leaf 50109051058068904106192105710673043101074905369106805112210462858011017685298099426411809878951411004276111101852550110490031181059146514))
 (.node 1 (.leaf 50157051028025980104346513510435145351035863862102883908410185206150990128833095239817409642349320975683564098581113510096203381028833461)
 (.leaf 50166071052576321105522600910573098461059640795105785631810557769861052682639104664360910415489801040623849104237836110499478671055812859))))
 (.node 4 (.node 2 (.node 1 (.leaf 50168051053689829106137759810608580721061843649105755617410516377331048546415104839949510452558161041764269104332598710475918691054057736)
 (.leaf 50192071051221483105105969610537476051057492452105377332010569814881053845396104281964110401952281039650243104368137110519577401054795843))
 (.node 1 (.leaf 50199051060936359106287814310676154021076798867107511983510568578071016462855099384996809927279521001837569101450643810517023251061607582)
 (.leaf 50242091065515389105176699510558950831061615196105939875710596564381065827710107999335910776523491064750000105258612210488817991049045065)))
 (.node 2 (.node 1 (.leaf 50249051013709571101701379610166759701016749316101412725310118990401009691665100722975110045665221005899900101630938710160854771017081246)
 (.leaf 50273031031428775104105735810327765891020210483100649017410007478290993483709104041784710437429291028338921101527236410152435951036381950))
 (.node 1 (.leaf 50307101067003616104869317110524941461058228782105371175610567366841067938378108309772710825233231069758925105341064010459274221044043320)
 (.leaf 50310111066984780105938238510603966891066034551106651430410678921531071204878107465991810678009211067680822106829657310648634601059574895)))))
 (.node 8 (.node 4 (.node 2 (.node 1 (.leaf 50360081072850889106587862310663783021071900110107571390310770073001079172233107832711410718361291068744799107090696510685739901063682668)
 (.leaf 50408101037661374101739306010150773171008175338100519902010042348721027786349104935596110545872491051790401103346664310190857801018138712))
 (.node 1 (.leaf 50444111066480844106078095110591653751057788503106272865410668931771074094636107257071510679154961068620357106846581010651787611059952698)
 (.leaf 50445081060078883105374899010555895461058640974106577245210669912661068449356106271344110576676721054636390105795790310558042461050597995)))
 (.node 2 (.node 1 (.leaf 50462101047460840103063376310249749291018946054101738590810177827241044403291105935301810623847251059051100104745996110334041251030102689)
 (.leaf 50481111063280281105464600810529778311050036830105308941910608237871071677389107217921410674999871068011810106610919410599568011053214230))
 (.node 1 (.leaf 50484111036586661103240670710236269601017670932100781096410039396551010738810104385005710525113551049231945103795423710258492961032296862)
 (.leaf 50529101060162281104379878410363900871029722444102143249410182741281053191389107414592810770540461069970819105681512310512921691048813313))))
 (.node 4 (.node 2 (.node 1 (.leaf 50530111057699961104533748710405928131037421922103400114210320361711050686248106945016010706676731067949556105796658210524290771049472957)
 (.leaf 50562101052318363102098393010059600900991304529099671831310093655081033061005106708549510733771531062383655103762706110330174991029115499))
 (.node 1 (.leaf 50564111058136130104302563110391096721036279278102920790610423241071061326250106914856010691584491065947204106192331110567697991046663804)
 (.leaf 50672101044164900096580296900000000000845744961083191500008916134131052430828105831704210599811051053521097104280211210161813031003905229)))
 (.node 2 (.node 1 (.leaf 50675111057134266104326878310382400361038324376104173683710521507101058059868106060511610668201251067893557106470298210508087411044310542)
 (.leaf 50717111049076143099963277709455100930882574916095913187809754129901044481739106385542810666513391057486661104995511510325696921021958916))
 (.node 1 (.leaf 50733111032399695093741666200000000000000000000086708550209415278311029055816104097178110506584821045685096103473278610094940690979619607)
 (.leaf 50736111056997666104275182310381386251035644905103232278110389436181053740120106396078610698985611068726481106002835510506482321046438783))))))
 (.node 16 (.node 8 (.node 4 (.node 2 (.node 1 (.leaf 50758111060452022104795273710426329551040799899103634545610388917781063853066106604568810649880491073765154107179713410595891041051758715)
 (.leaf 50887121065353664105486161710494528401045132053104416235810519384161064787673106780449410724686471074136671107505658510678067441061112689))
 (.node 1 (.leaf 50929111059981700105232026110481902111045397290104157572910411999621048220423106184439810720791371072304251106739016810596398291056813094)
 (.leaf 50949111056934027104864473910432149501041364028103868043210424491141051139096106055990610666369341067448926106337136010563744551051732363)))
 (.node 2 (.node 1 (.leaf 51011091050610355104486215210446150021045651060104732498810537358051059425700105883678410535487801048632494104625135710440823261044803968)
 (.leaf 51015121063009330105422432710496465211047652213104941343610586617631062205229106689734910698828351071369962107183451910638355841058224512))
 (.node 1 (.leaf 51071051078879856108278454810818280361081822125107955628710785393211076141356107515513210755848261076645169107735223010797932311080701899)
 (.leaf 51162081070660928106881667010715348191072852593107610837010785960271075481688107113863410674158901064664553106222239710609399771064811864))))
 (.node 4 (.node 2 (.node 1 (.leaf 51231051059710527106152312610718036481074336498106992800010563478541047487257104180579010377411701033725072103453870310418135361055486617)
 (.leaf 51244101032875193102635347110237781841024452414103068948810375216271037740711103805342610366508081034305406103276799610303899071028468526))
 (.node 1 (.leaf 51259091040046010103067721010298024711035265694104588697410455473651044660780104372601410417078201038832730103620990110337155311032368699)
 (.leaf 51324051068101060107463602510746336361075311554107262912110679271381062097810105838788810559390001056404013106092135610669430521071121826)))
 (.node 2 (.node 1 (.leaf 51355051049027798105428746110574911781058933735105384367110489069601044662150104209309110394752861036677588103576719410354969211043879234)
 (.leaf 51509041068525745108015213610746255571074703507106668088410601803011056610157105271162110494161451045363168105312409110717655071078901991))
 (.node 1 (.leaf 51519041065272842107445643410692391661069228844106442322310592230651055875141105222994210495923961051308040105943145610680991701072527007)
 (.leaf 51625041059674682106966492510669420661065626048105950750710557468451053674605105106075610486979671051529964105230089510568904541063855374)))))
 (.node 8 (.node 4 (.node 2 (.node 1 (.leaf 51857121056987163103939820510243949551033293507104691600510576059581063162532106380636410601505621060293112106032895510603429501055540311)
 (.leaf 52198011051268499105068818310493215201049863809104978424610516879471051464467105200339910521291301052249567105293854510517291871051361984))
 (.node 1 (.leaf 52253111058529188105091972510501999361048911637104886911110644280271070407632106089521810582735391058519744105968396410560355371053451832)
 (.leaf 52275011057347293105629552210532967271053267364105305346610577754931058865291105915006610585969101057944795105837310910579586691057617427)))
 (.node 2 (.node 1 (.leaf 52306111055924210104860432310470155761046495825104632325510603788641068346778105836877510561524131056658416105684159010511115131049658803)
 (.leaf 52485011058193389105811834410567787591057283784105626550010580607811058669874105889875710588522921058439548105908608010587899751058634493))
 (.node 1 (.leaf 52771061041145478104261910310421031781043197527104228315610419872111040877080104030379010390229531037925284103891362710403555871041807090)
 (.leaf 52862121050408721104886051810462710851047641779104938782910521306571052968331105385997610519193361049775181104970064310505405271050229219))))
 (.node 4 (.node 2 (.node 1 (.leaf 52867021062300692106254408510604154591061295000106030011010609881551063005098106180437910613834741062859470106483242010646870691063493585)
 (.leaf 52887051057817495106266823510612179401061505391105902168110571874021053517709105078889110504347261050835840105445979110584442241061335065))
 (.node 1 (.leaf 52987121062061803105620703310522094311052241012105450443110669336891066776478106584076510654393061065943895106594359610625708341059024476)
 (.leaf 53022041062171422106544217710628754121063045091106152733310612216451059941012105934386410588899531060044666106316046810646787441065575481)))
 (.node 2 (.node 1 (.leaf 53064061021435595102521986610240577841025484425102682106510258633511010656008098020501209709032601006292094102435346410260178111025656628)
 (.leaf 53074021058404090105934451010574490531057411143105727862410599797021058503983105835388110576771381057209729105852511510591748401059941361))
 (.node 1 (.leaf 53108121061000536105714840710528327281053819958106068332410673298691063282306106295305710621409311061357875106293909010620719561059832019)
 (.leaf 53124091034712932099859745809962601090997525476104048896210573587981032394295104102014910351592951023860519101133933810002862520999386113)))))))))
 (.node 128 (.node 64 (.node 32 (.node 16 (.node 8 (.node 4 (.node 2 (.node 1 (.leaf 53183051052881983106424516010652097361065022148105789719310502380991038321412100352294300000000000982110027101727861410368074041057652304)
 (.leaf 53200071055325398105562919310528631751055406076105782483210576542261055335233105390028310524755731052736540105524956110563733221056906917))
 (.node 1 (.leaf 53239071042031848103412423610365996591046718654105388095410573382421043907608102600551610162167901023984661103231809010343579931033945402)
 (.leaf 53246091027150932099316272209979719191023780636103183994610238292401025501646104194388510436575461022414278099169665210011975090996192192)))
 (.node 2 (.node 1 (.leaf 53255051061719905106658427310667457031067001144106788825810611357621050990241104361592710391778321048000487105709920610660117131068689959)
 (.leaf 53270071049508694104575942010496984211053859372105451652510537842001051273485104851622010453984451043704475104413537110474770091046921701))
 (.node 1 (.leaf 53282091034434483101205017910094772231016593859101043775910156581051017762782105048066710553276041032939242102199702510182422061015042425)
 (.leaf 53290071057962391104317546810480033231061229610107247682910688039541059175593104754890210432828951044008846105237559910540047211050029808))))
 (.node 4 (.node 2 (.node 1 (.leaf 53297051058435583106762678610678555741068874420106192792610572367221049879059104141110010360146241035083289103675086810513594071060415230)
 (.leaf 53317101058960366103415040110347464941049534399105116646810537541961064637444107319108810728794561060911424105387738610460569721037948683))
 (.node 1 (.leaf 53320071042565745103771917610410228331048314151104942237610513638511044702707104237903910324775921034702105104081984010361503141036273688)
 (.leaf 53330101028780469101691708910162643451032736298103288914910184639891007547382102589046610411635671038761508102750958710253758801021482093)))
 (.node 2 (.node 1 (.leaf 53336061048521531103245047410378836761055560013106597617610584293021048031049103686207410294158911028098148103126747710352830031037092651)
 (.leaf 53361071039773190102399472810236224411030123918104553558910574249871050173932103260884810324493641028220031102833081710260424721024629862))
 (.node 1 (.leaf 53386101046828807102389240610188487301017021624103313364010574285981059231050105600663910528235351050392434103986288410305819831026971031)
 (.leaf 53394061060796123106624854310665733031072988505107140617010612815401044200535102761861910243722681026014857104125809010571444661066528213)))))
 (.node 8 (.node 4 (.node 2 (.node 1 (.leaf 53395051057150735106548978710652058761068658562106638213710503078361016756427095963439609835191531022013687103249526910504641131063415140)
 (.leaf 53409051058200993106623192210660845551067347072106147438810560831611049919016104496747210420381671043174910105049496010543184771059909004))
 (.node 1 (.leaf 53410051029817801104148975110453111361042727844103408458910158733300984929846095974181509642566690978473218097932009310108978171025990105)
 (.leaf 53429101059978098104388598410436190961050029177105195365610566558451061806648107231877710714912831064657527105993191310542500361048885298)))
 (.node 2 (.node 1 (.leaf 53432061067541505107193195010724641181075119309107177900610684145701065465171106187142310607280631059441773106250831210620286051067274326)
 (.leaf 53460061054533252103453536910480454421066506155107430755610674725571043430240098539054509493995870987104057101262823910240362071030346735))
 (.node 1 (.leaf 53461111049777591103416437410300611021043101660105663301610518996391051201408105317033810537321911056012296105404386610434143521038104854)
 (.leaf 53478041031866455104208214010428724801041372231103071777910221702111006981602101068432710162219431015960028101855941410237946471036547791))))
 (.node 4 (.node 2 (.node 1 (.leaf 53501051021876979103144093610321063621040243023103317412910152735550932026062092157704809164920190909513410090400192009080135000948574509)
 (.leaf 53511111061911855104995764710549613541059855307105723470010538808391055751387106877494710669860921071524181106841941310599907281052355983))
 (.node 1 (.leaf 53533051061769496106239562210674187611078567302107722274710583800401013074597094027038009488160490967401439098955036610403792101059615404)
 (.leaf 53545061056472936106038669910611601941061326435106141188710596788051054237773105176982410454887811042102042104541242010504381751057861723)))
 (.node 2 (.node 1 (.leaf 53560111068305706104625349110469181581058869744107160295810757800151073978279107508341310744301361074091229106894505010586147001049857073)
 (.leaf 53592111068491232106066743610621121501067549819106798707910696169541073657325107617266910697182161069182459106961113010661354541060826434))
 (.node 1 (.leaf 53607091065984960105786528510593550101066162717106831703710683811631073027419107316767810659926111064110145106233250010611899701056174561)
 (.leaf 53608081078795864106736421810722265721079184873108477003510851299821091584824108457134110705372651071551646106946333110674991331066451647))))))
 (.node 16 (.node 8 (.node 4 (.node 2 (.node 1 (.leaf 53618071017402805101904601210190215671016676533101950281510217496501025958921100298799309904359601009380433101829370610175177921018646832)
 (.leaf 53640081069169265106088788610644589511069675988107591165410771999981078255412107063637710662219501061631014106344378010629307311058504757))
 (.node 1 (.leaf 53671101042126503103993543310342637781026719261101506562510104067651015912558105138998410596628321052767923103136634510246067781035307222)
 (.leaf 53681081065716622105837955010601973881064672643107093804910725876631074311133106773205410623135471058854262106188748210597794731055060244)))
 (.node 2 (.node 1 (.leaf 53707021041040259104191903910379911251035412662103175392610290588541026420878103521551010471198261049249772104549613210438189391043676303)
 (.leaf 53710111065551217105706250710552645171052355925105589106610625981511073866660107436904010690706771069504930106762887410619250391056203150))
 (.node 1 (.leaf 53720091037682971102535079110264786051018411980100571412209966189811017125026105796084010543123761032586585101317039210267822631024715215)
 (.leaf 53724101038563627103537344310272749381022657245101445063910101541291013351619104495762410541341901050418189103802460610254359301034902975))))
 (.node 4 (.node 2 (.node 1 (.leaf 53732101056131595103312841810256345531020506260101557352710155245881037551786106796829810754623051067192378104901137210393609701037198282)
 (.leaf 53734101055409617103291431910177857700985201601094676676709532534821015672345106707954410765449951065593208104412010610396790361040278355))
 (.node 1 (.leaf 53737111031868463102455130610241526911022451188103223530710331311701034381009103117738410211524871044395001103657135810249269101021366647)
 (.leaf 53752111062272205105006879710486716281047656467104207794810586225671070035466107120495210720926621068401055106376627110586631531051311453)))
 (.node 2 (.node 1 (.leaf 53754071079028573106402130110670030171078892110108771265910911318261088698288107860062510786822661073037213106826010910647265191062682197)
 (.leaf 53775101062073000104349903210379087641032268580102403096210210519381051343075107554875510807069741071302925105780314310509103891048060113))
 (.node 1 (.leaf 53940101065247153104463948410404771151037824049103375590310366876301062180925107715633310815815691075455266106198839810521676331048943246)
 (.leaf 53949101065972138103903978210346686051039077956104758527110575288991066273814107917608110834671651073042054105543871610467847201042687114)))))
 (.node 8 (.node 4 (.node 2 (.node 1 (.leaf 53951121076394685106551412610603091931059964915106704936610762830451081494705108081490010831438371083418467108290818410767354401070954018)
 (.leaf 53992111059261147105100464010467465281044225995104080029210422635241052494496106182935710712838811072091444106515752110577105531054362657))
 (.node 1 (.leaf 54043121073148306106386524310637401901067917078107508559410781850971076403998107490561610730569891072816271107514262810745716251068695230)
 (.leaf 54101071073265133106856392210689464491075257032107825631810774934741073980346107209263110676662921066657533107189918010747227721072644819)))
 (.node 2 (.node 1 (.leaf 54374031041656197105096546810510967451041601644103741631310331472071028062777102616450710244211291022200559102137830910369542271057146646)
 (.leaf 54420051065279496107516287010714412781071863920106541327610583338281053644538105044662210469362511042778127104529911110659165961074385655))
 (.node 1 (.leaf 54513041063675275107179822610710013921068112853106219588610604448771060766727105691250010527867521057498145105856396210599542311066226581)
 (.leaf 54521071067741021107269577310736490221069867538106549973510664917191069511892106580723710638170851066213095106680310910640665111067058117))))
 (.node 4 (.node 2 (.node 1 (.leaf 54537061027229277103824155910333353711027566245102781951510412256531017706253101985057810105258490993868383100962099510006676071028764276)
 (.leaf 54584111076872983107132177210717812711072983016107245357610775861951078744025108210983910826326611080062299108128745710755522131070748991))
 (.node 1 (.leaf 54590051054163144106307611810602123351061926355105771264510523504791046217645104376039110426884871042847359104454878910505653291057269362)
 (.leaf 54642021051822473105550545310499661571045074329104316695710392764071036259644104007408510421367001047078133105589563110638893591064432895)))
 (.node 2 (.node 1 (.leaf 54679111037246091103214830610289109021029083867103194842610310363321035510926104542167610454531961042747470103993970410351201921033389306)
 (.leaf 55005011050318468105026850910487511411049033607104858308010503627521051038489105137217710510578081050577433105108228210508039671050890373))
 (.node 1 (.leaf 55062111055181123104952806910475878661047800640105087926410633261571062146972105689692610558258991054548727105592542510538398211051442054)
 (.leaf 55134021055978795105610991110538995301054659216105484725110569767351056681752105686292410563367931055701225105653868210563048401056814553)))))))
 (.node 32 (.node 16 (.node 8 (.node 4 (.node 2 (.node 1 (.leaf 55211011059633070105930575710578446861058460346105927173110599690071059685476105961308510599821751060049196106076463410605074591060143288)
 (.leaf 55249021054366924105458820410527712031053720369105336148510546432981054603340105516690310550537741054405396105482060410544681941054800314))
 (.node 1 (.leaf 55431081067412111104226900110412788831052907348106921111510786467851081549933107486624110663010161064438900106145927310556626641046717289)
 (.leaf 55477041051726448105430177810523693501052790213105112315210505223161049686427104993328510499019161050586644105215606610531903101054155923)))
 (.node 2 (.node 1 (.leaf 55509111064992142105881777410557977041056353555106049515810706451761068811530106745247910666459301066396702106682732210646817421061431816)
 (.leaf 55535081062916151104859304010487995961056129116106629776610746226971074492905106640704610604235631059301821105748691010557109101050523586))
 (.node 1 (.leaf 55563081065830088105993273810573320161058534337106681424710752526201068804115106710874610656312701063585984106506697610651349751062618998)
 (.leaf 55566101059464878105376671710528101881056981168106123790210608411261063862961106496521610618831731062003943105787111210563477941057022676))))
 (.node 4 (.node 2 (.node 1 (.leaf 55603091067019963106279725910594103821060479209106801507010748370131069976625106859762010671917281066020517106673822910665572481065837072)
 (.leaf 55669091071105025103965517810362843261058668150107774600310828851201082618152107741950510741903741069635354106238977210525938451043548948))
 (.node 1 (.leaf 55709061056930832105846194710602735891067703168106922733410622684781045834581102692219510189648601021944161102973550410478598981057706570)
 (.leaf 55718051050138380105822888510628791771065857164105755606610466837861033310705101378825509956793121000107730101091637510212714341043766532)))
 (.node 2 (.node 1 (.leaf 55733041033289864104919428810475484911038433745102767404010195536481008068721100083989209905348030984746072099812937810067948961043038555)
 (.leaf 55754071065480057106558193410672551921069950203106888281810701480471066253963105878570010543548111054334750105926066710650874671067083875))
 (.node 1 (.leaf 55759101056523517103727638510377157561047869633105139964910530703561058480392106626508210680817171061371433105585510510493512581041715484)
 (.leaf 55797051059263654106686980710669646581068387281106342948410578503401051721102104734887310440554491045339409105153465510552161701060752454)))))
 (.node 8 (.node 4 (.node 2 (.node 1 (.leaf 55810061036909562103337012510345933241041697069104601315110449212911035732521102844648510336472771031993501103173301810332368251033751784)
 (.leaf 55842010000000000000000000000000000000000000000000000000000000000000000000000000000000000000000000000000000000000000000000000000000000000))
 (.node 1 (.leaf 55846041027142875104102076510403273381035636287102471508810119213321002439667099865963310065683061000689623101564674810144029691034522788)
 (.leaf 55853091073591818106091854210673277331076049210107840908910811865941079167748107950877510769052141065630541106013900110581314531059680581)))
 (.node 2 (.node 1 (.leaf 55855111064232927104048689010453353281062534055107049537410666980741065796987106748995010679093041070320566106894422610552174841043996395)
 (.leaf 55867051061957480106850213910681272681069663196106555556210595714761057195928105882352310559429381053068306105391130810567425151061853622))
 (.node 1 (.leaf 55870051065071600106755227510712071681080802099107833071910598581101021128287099503268610067578301016240879102081638810495175291065590381)
 (.leaf 55872051041988121104402330510532379331057787256104798709510320458111011153512103979741010349606971013027846101611893910243318531038174781))))
 (.node 4 (.node 2 (.node 1 (.leaf 55889061057221010106164765710624762801064012428106282771710603758251054148142105130082410437867231041036540104265203610498490051058468580)
 (.leaf 55924111069695997106180469810633309641068487154106895966510708124331074643635107753767510715726221070520707107059212210669869291061887401))
 (.node 1 (.leaf 55968111024948128101050742710076836511006421066101957002710238791251018786108102789542210291120021043272608102539428010095656681014873047)
 (.leaf 55978111068909442106430269110622836791061101874106662613010700184561076165814107472358810700227151071011357107122638510675038561063317392)))
 (.node 2 (.node 1 (.leaf 55980101042147870104038803210347547021027273866101526991010106726091015066484105078686810599286251053315072102978017310216282301034460170)
 (.leaf 55981051021295534102439882310239783201025243362102376266410202738331017825049101813462510184600481018276461101874198610199524901022756282))
 (.node 1 (.leaf 55997071078118849106559711110683341381079287880108786833410900353691088919720107447559310743142631070581316106736749510657165491062923306)
 (.leaf 55998081083212842106842274910730311671084466930109220697010934501441094437631108366776410770191001074509763106988770510670852651067128401))))))
 (.node 16 (.node 8 (.node 4 (.node 2 (.node 1 (.leaf 56020101056564427103447041210226711701006507982099127146809858581521015334272106781834910772191361066447000104571531110399170721040737882)
 (.leaf 56127111033604356000000000000000000000000000000083616017509439224721029166070104229026210525974521046374197103788091310059550980917386442))
 (.node 1 (.leaf 56128111065583849104956247710450521591042996136104024908510397500111065933903107584182910741209271077165606107351865110588820531052745257)
 (.leaf 56138111053389442104383595310393166401036564310103288048410329870661046374261105666938010653664661066598263106125017010515755161047260443)))
 (.node 2 (.node 1 (.leaf 56140111065490703105145969010469321011044357419104080946210442903771068264795107055258110697255161077299397107540647810639425281056245668)
 (.leaf 56148111065093364101492557409382192540000000000000000000009827102721059282992107956509010807125751071929116106945277410592603531045186071))
 (.node 1 (.leaf 56163111057071931100254346308415214740000000000093186063009485528171041588644107031593910749719431063168365105868733310552330401039403117)
 (.leaf 56165111047519692103833590010323230181027102740102430083810335776921045901538105027931610554188971059771373105587010910467914341042217340))))
 (.node 4 (.node 2 (.node 1 (.leaf 56252111078415092106244304810600915471062177358107127357210780298571081008934108516687610864928211088344891108428837110732059871066439944)
 (.leaf 56480051077722930108845819410840539031084528492107825424210704007751066119212106270730110589365101055260367106285159110788668431087501983))
 (.node 1 (.leaf 56554041076882332108909581710828112721082041621107505815110699505041067740390106369784210616472751065268235106660639610774513121085285827)
 (.leaf 56574041064890699107308963710725136191069059575106380908210610556341062254371105789546410541135961057779945105867689410605413941066611850)))
 (.node 2 (.node 1 (.leaf 56615041045450280105886095610553235661055749384104185197010332003871026877111102437902710240659791025130825103413378310422673341050393132)
 (.leaf 56626031072806691107382972510731997141072246891106936153710719047861070705944107402142810729176951074559103107526448110718754251071086119))
 (.node 1 (.leaf 56631041038619214104529258610498811601041890728103442066910289891471025703802102161235010180418201019998302103350220010406610351049055286)
 (.leaf 56636111077873297107248323610728955051073956056107374379510786830281080005644108285298010833674571081358875108242409610765496231071965333)))))
 (.node 8 (.node 4 (.node 2 (.node 1 (.leaf 56675021044114202104762730210418569471037240545103540803610319638971029340025103259827310346963251039735566104846596810564152421056977261)
 (.leaf 56941111057911214105189071410508409291051179444105072637310598908871068850425106034213810582142701058378907105868147010547730671052960350))
 (.node 1 (.leaf 57018111059285117105378969710521885041052813228105916745610678126761065382991105894690810589437481058646838106008741210583568951056524624)
 (.leaf 57266071036196367101745219710132760351013231299105539027310494732781037225920103272589410294820561026424579102532237210236375711020634857)))
 (.node 2 (.node 1 (.leaf 57293061040869032102153409910167819491025009920106255737610482900801036365229103366307810322656571029452275103241071210315590391025116752)
 (.leaf 57318021069061248106973600310675224791067518251106628295510670569291069164472107019569710699876601069473006107053911810705630171070695393))
 (.node 1 (.leaf 57323041060152232106255142110606306211061068792105953563510590191821058121864105828893210582995811058953498106085328110618032241062700753)
 (.leaf 57391071055156159104385134510446348791054045711106491674010715110141065365858104681110210285915671032961782104184983710438882851044178526))))
 (.node 4 (.node 2 (.node 1 (.leaf 57467101060221635103723804310333204081047150367106833414410633680081058988804106779210810726844431064888308105312766710524021121043855210)
 (.leaf 57469071060332891105727682810596528341065192614106622817110663245911062173243106019783110563226921055247035105717143210577795421057401802))
 (.node 1 (.leaf 57477071046808039104222872710413952631050133280105730500710580643561050778869103780330210245968121030467740104100855210438108731043265463)
 (.leaf 57495041036671102105158662710503900941042506815103386702610261517021012531728099581033709791354090991326945100280467610156144481046586576)))
 (.node 2 (.node 1 (.leaf 57509071066736026106717608010690280601071899871107065959610717699191067381639106007718710561161381055894001106030174610667094591068826946)
 (.leaf 57528061055746858104185738310497538991073085978107580040610578599211034052360098620259300000000000893005052098384173410156944301032077078))
 (.node 1 (.leaf 57532071061569163106060670110628556791066878064106593960910672633301064176845105669312410513879911051610019105736302210613372271063095649)
 (.leaf 57538061068803858107486401510749616981077129294107413020610698173681066265922106088454610581421821056061708105788587910619023941071312757))))))))
 (.node 64 (.node 32 (.node 16 (.node 8 (.node 4 (.node 2 (.node 1 (.leaf 57545071040708876103119631810352015481047357354105138887810545695171044897459102036303810159624391021522405102848418810326579041032258415)
 (.leaf 57547061074058188107764074410779952031081324955107809371310746493981071046600106790420410670512651065560006106797024510676721331074166544))
 (.node 1 (.leaf 57557061026785355102767260910343034521037318021104217807110360340120998909743000000000000000000000000000000000000000010199662111015330898)
 (.leaf 57567051060152481106685747910701009041075933302106880422310430933920991948149093376501610068095721020917085102849266910535904021064447276)))
 (.node 2 (.node 1 (.leaf 57580051065912889107294877810716411791074150550107039831510648822021060265048105865961210574569481054465478105712328410583962131066421685)
 (.leaf 57581051067704622107375738710731217361075796280107090125210668633081063730408106061536110609377391059768284106382720910634845231067704078))
 (.node 1 (.leaf 57582051057863781106183113910672664941075745777106717112410440853070999253704000000000009413949290961518366101763550410446131151057490774)
 (.leaf 57591111072325569105987435210629078121068669739106663343510662073821067934810108100043110775429931080445856107700379510702153531063612697))))
 (.node 4 (.node 2 (.node 1 (.leaf 57594051065815344106926412410726071661081361228107855979810604396651024462730100753405710131259581018768963102254625710514393231067135220)
 (.leaf 57599031024138865102416195710248022511020924472101723611010244206651024874614102471977810220590011024771080102761832910229977921025868672))
 (.node 1 (.leaf 57651101047339357102968958910294171711024714799102648450810239260671039585773105593568510636815231061668063104651594310226114571025487984)
 (.leaf 57659071031363823103274163810329746351031900080102960469410316981791036421597102386574110241948591027031093103274419810323364901032162763)))
 (.node 2 (.node 1 (.leaf 57745111073155824105762489610546489611056074673105862503310668309681077818055108424830810836329421078850123107384890110679996851060079415)
 (.leaf 57754101076716763106476040710587629371055517180105304167810525835121068815570108836716210924322741086700256107518466510709016561068158301))
 (.node 1 (.leaf 57756111066967877105463276510499481471048208113104361854610464795091062155711107416336710798784811077374426107280641910669646201059134078)
 (.leaf 57796121069276220106091620910573077451052198540104851761610503977311071429073107406015310740522421080662274107942692210701884561065160748)))))
 (.node 8 (.node 4 (.node 2 (.node 1 (.leaf 57807111065554249101085654809330886580000000000086870936009769117891057507652107939084510822390461072675897107063846810592641591045493457)
 (.leaf 57828011042832055103466772310201968691009234317101132097810331322881044151403104207923910432324551040643653105587715910556849251045222336))
 (.node 1 (.leaf 57846111061062984105127852010466365931044119154104104940210427138791051431993106497050110734530651073969962106861164910606728341055418706)
 (.leaf 57848111038245939102868403910249441321024000415102146469210211227301023554658103423924810525047031052815061104184034510342782271032000306)))
 (.node 2 (.node 1 (.leaf 57849121056388296102800777609932532410993907466000000000009064165701046051743106769829710723490091061764445106172416710581840061049297546)
 (.leaf 57853111044281804104155785210385326961037708444103530000210343943951033240200103329440010555334241057073706104767999710441690751042897029))
 (.node 1 (.leaf 57870121048909138104394563410398933351037171171103359977210306566211029312572104007034910535181521062576424105859407010513414291047901788)
 (.leaf 57989101040081077103574812910340077021035724734104195804810441132561041501202104156713010412798001040493247103990672410378646131037020014))))
 (.node 4 (.node 2 (.node 1 (.leaf 58050051078928481109007997310852650121085801941107966117710712964661066491818106295893410595237571057694081106236131610798071721088896975)
 (.leaf 58075041052182219106133912410669212081065384006104970395010411554371037450468104041008510338282851032746233103356052110352017931052660432))
 (.node 1 (.leaf 58085041075399580108868610410820671411079263699107430530610675485631063482759105985780310568986181053008924105722642310764393691084897743)
 (.leaf 58123041067372642107594284410754619201072423261106636973810638954341065451100106012957110567917131059329623106059480110636538281070601362)))
 (.node 2 (.node 1 (.leaf 58213111068874060105971187310587356541060297522106863784610706727011073905900107762592110743283201073083430106893376210641472051059674002)
 (.leaf 58230111063703192104261756810330454821032679497103671704810623429991072599944107451390810692200891069043802106823222210627821831055595336))
 (.node 1 (.leaf 58231111072921831106528435610606439751059598876105795375810676093121077167621108167860610801078861076786436107545971710727906661068523668)
 (.leaf 58360111058317228105085532910490211871049594189106002334410685858071061925771105877948510575703071057738905105942757210571371941053442397))))))
 (.node 16 (.node 8 (.node 4 (.node 2 (.node 1 (.leaf 58526111065336879105666914910542182811055151236105997854410757227621075649171106594829810622507811062742683106539337910607569561058056416)
 (.leaf 58622021072025862107349486510711215321071636571107023001810695715851070013867107155109410717537061072179215107392504610739692091074097425))
 (.node 1 (.leaf 58637021071268551107179124010692084881069313628106782717510687014171070682253107148690010717678761072676792107411912110738345591073343133)
 (.leaf 58638021077805477107829876610763682001076887040107574548810752297751078525447107818974310774958241078407873107994437310794732461079099953)))
 (.node 2 (.node 1 (.leaf 58684081071304477104695792110463789501058551562107389982710825726951084527652107833532010698121711068123334106645443210600009891050748985)
 (.leaf 58698091072611800106434425010620286001065629873107017634810768393991082251949107936580110734856571071092368107045370610693969481066635203))
 (.node 1 (.leaf 58710021070636327107071124810682469941068266669106732398010698686581072139386107212790710715945881070942969107228947010721540161071970039)
 (.leaf 58724061061160479106235723710611393621062337724106150152910614540501060636674106070110010603443701059957108106071079710609075621061878232))))
 (.node 4 (.node 2 (.node 1 (.leaf 58734111063785568104615029910416365321041162921106598238710692451141058007139106581595910751036411071673218106788999210576941081050203917)
 (.leaf 58743011064986957106496180310618251751062343084106470640810672817581065652511106508871710639902801063546585106546451410657822471065892724))
 (.node 1 (.leaf 58781051041782403104201164610441075071048616087104335885910411208421040314097104038214110403336431039948729104009344210398093681040897068)
 (.leaf 58800101066558420105114723310477262951058942761107027520110645532331064643034107513176610779596931069672221106420166810617137521056264813)))
 (.node 2 (.node 1 (.leaf 58804071062196365105485297610577112541067476766107454821610771721221069229858104387637310098844071023148734104205073710497844091052761402)
 (.leaf 58805071043850902103854006910413341081050278593105690424910586544431044919874102191073110097152141018766833103174810110352164351035902204))
 (.node 1 (.leaf 58817061058717692106802373510688966921067563961106648387610622555641048695115101858695109836285411002681539102869238110463768651061129900)
 (.leaf 58822101062242421104014959010358865881050159016106929095310652659531060738831107029314810746914511066453321105565507010550108791046681793)))))
 (.node 8 (.node 4 (.node 2 (.node 1 (.leaf 58836051049271889106127166810604552911057267191105153455510474936051035304691101526865309755404550979905687101059812610364978171056252241)
 (.leaf 58837071052189530104715183610513726261058238539106388399010635639011059938637104152974510162270941029851139104055242210420624481043187389))
 (.node 1 (.leaf 58852091074546043104537665010495812041067817277108030568210845973141085690648108395677310760232321066750288106071568710552225831051359992)
 (.leaf 58858101060405892104276914210424829011050466236105465598610574432991062145173107143961310736154901066003251105952351710534365371047133762)))
 (.node 2 (.node 1 (.leaf 58869061073784938107529864010793758591084009379108488437610772414001061664209105836918610561853441053080734105185149310622545571073554183)
 (.leaf 58873071066074146106554759910671854981070556002106926279010711966641067933874105928499910548648381056075379106108824610664958431067601072))
 (.node 1 (.leaf 58877051055342608105413252710668328021072969747106904993310536390811023668478088767499109050619950975777264098785200409998497551025538974)
 (.leaf 58885061076755545108183017910820382151084268186108214331910772972191074343202107127569710701803041068195026107093918810708519681076919928))))
 (.node 4 (.node 2 (.node 1 (.leaf 58906051068199365107395116510737996361076165479107174667010674005201064506966106129209610616508811060520240106466129910641718201068176808)
 (.leaf 58916061032992134103692085510402634591041639802104056547010359306121009242890100290308409997330450996250798101324501010341256461041272519))
 (.node 1 (.leaf 58937071061171663106288440310640768831066885599106568046710662182001063077322105645786910514350201050031079105153685810593948111064458018)
 (.leaf 58958031047441348105399685310497700411040303739102524636810192728631017581651105451596710605789861049781669103494649710331759811050391444)))
 (.node 2 (.node 1 (.leaf 58979111074508224106924132610683512371068550844107454149110764176521081668899107897172910741906631074621402107571112110727443001068354642)
 (.leaf 58988111032954358103183754610305776391027694842103005706810362414431035654361102902710810259518281042254934103643741010281579401027860213))
 (.node 1 (.leaf 59019091083647346107277992010759608071081783021108816689410918907521092535338108971722110840799471078581156107613238710750380751070879459)
 (.leaf 59029111063003994105128026810481408131047438666104384912910481287261060855511107149623610751748341072860123106693856910617299571054140974)))))))
 (.node 32 (.node 16 (.node 8 (.node 4 (.node 2 (.node 1 (.leaf 59049041047478594104851597410463703471047544880104664233410467255271045786254104616962910467682081046909328104909454910490204381048904335)
 (.leaf 59073111080119540106507403810594427661057385966105365863610598077201083621604109153376810933868341088312644108243243010744242821068300460))
 (.node 1 (.leaf 59101111043389404103727341610335705401032268133102834336910264150281027423903103500354110581449931058469298104505742610404836731038965951)
 (.leaf 59105111062202815105326698510490366481046464169104231585410406414571057605505106862640610743405751073588665106770740410607448011057422025)))
 (.node 2 (.node 1 (.leaf 59118111046588739104310406210403638991039100200103593750710347667211036563020103388320510573911281059259691105046235010463726821044688876)
 (.leaf 59144121060725620105485947910501521511048505622104473026910472291011053256695105919447510668960431073749770107012258010637990461058644658))
 (.node 1 (.leaf 59241071059894875105955749510628670941064971483106564177010620726611060226085105939247610582197161057152063105640119710542543001055148880)
 (.leaf 59272051079254896109071396610858093971086282025108020778110711051551066065103106258028310601659191058793494106080828310789208021089350226))))
 (.node 4 (.node 2 (.node 1 (.leaf 59307041082466932109300440210882742731088212858108239171210755206621071283735106793803110650467931062152716106722983810831079121091232828)
 (.leaf 59338071081684288108566695410857656881082877844107775444210794868131082397915107969656410779542661079516089108088811410780833861081936702))
 (.node 1 (.leaf 59362111077082895107665523110758841431074898346107391346110779215181077298387107963005710780520911079594873108058791210758284581074730269)
 (.leaf 59372111085172529107909553810788563971079408768108143719110866742971088115110109063598510907168371088097925108959940110838473201078687400)))
 (.node 2 (.node 1 (.leaf 59407111070550073106207126410605739671063186724107046877710723005661074866715107896300610752924031074505098107084642810662057391061739621)
 (.leaf 59576111063425244105462664710520526201053119781106216599310762093571067643280106455077510623219111061590889106342564610614892571058278109))
 (.node 1 (.leaf 59605021060051519106006811410585065411059087734105929565110602827041060322930106078197110606635141060152668106057966810602653261060611409)
 (.leaf 59773021081668627108222038710797159451080464176107898780510783966821082239986108195475910810401461082325263108341883310831439841082774848)))))
 (.node 8 (.node 4 (.node 2 (.node 1 (.leaf 59849081060754235106011109010593765951062875598106653588010637241551061627121106119414310587838101057616610105761883010584526941059951628)
 (.leaf 59877081074474544107112243810685296921071386440107744887810821827171075793511107452765410734441381072013583107323413610738872921073681185))
 (.node 1 (.leaf 59886071050586444104464459710462944481054367686106120057810657945861059860256103193543809845033610999591853102604588710405292951043256079)
 (.leaf 59905061025979313102254294610325286741040724928103922886610340079121024663859100375210909448745930966607818099355034410025652121010029824)))
 (.node 2 (.node 1 (.leaf 59931071021075722101197978210199487291030060825103475746210317798071024778722101186225710035163091003433598100583919710038645521003914098)
 (.leaf 59937101032545305101667561510166464381032592252103584122510229257781015133587103592528310475292931041279448102672057010241161541020480089))
 (.node 1 (.leaf 59947071033008427102715602010323947741041116418104044332610393661941036580486103280743110276042471024975881102576422810239992451024122752)
 (.leaf 59951061057549792104814839710495349881063655711107533849210706799621056781792102446525800000000000983738597101904053410422162731049332237))))
 (.node 4 (.node 2 (.node 1 (.leaf 59953071039970932103259644410324591511037214877104783646610573932961047076590101036755810146517351025387857103169687510318166641031073932)
 (.leaf 59954091074737901104925765210527946271068806998108061163010846800981085691112108396867010760783801067013011106112941310561738601053083984))
 (.node 1 (.leaf 60004041026951080103076701810310996341027885290102441330610249333261024048711102011771910196579271025405691103106551810279866911032154277)
 (.leaf 60011111074805824105900398110626875531071677949107537921510722889351071812202108105205210805422991083348945108017940210700625861061977794)))
 (.node 2 (.node 1 (.leaf 60017051070352478107608844310763981311077757290107404743210676985841065442027106702106010655014761063398054106467841110653130801070226699)
 (.leaf 60071111069423434106101655010586506401056941390105153357810578641491074973159107833028610780334001076610956107254213110678935941062581624))
 (.node 1 (.leaf 60080101068199732104917729510392708481026664761100483394309890133911048354700108018083010875342391079537955106494307010572302771053668495)
 (.leaf 60087121066435237106419585710610041471060092025105793900010573522001059815069107060559410671317941075615978107348060710666965921065559326))))))
 (.node 16 (.node 8 (.node 4 (.node 2 (.node 1 (.leaf 60091101081774582106627154910657723281067753981107204504910777273561087015908109254154510918216991086731298108023439010749396831067536083)
 (.leaf 60272051084362245109419820910919308331091739594108670157610790199231074562712107220060510698961961068259650106890035210809600491091850184))
 (.node 1 (.leaf 60275041052766800105913882410619446751057480463105240430010481040491043073077104182138910398296931035501415103401846210479726781066063676)
 (.leaf 60290041065798939107701578610736745841066303182106297456510557922711050739393104800287910438993391040545340104225396510673365661078647975)))
 (.node 2 (.node 1 (.leaf 60303051082835927109352409610889257371088815817108285048710761221091072152179106860589110656948961062803480106739831810832517751091532578)
 (.leaf 60314041079064463109122180210851505591083761464107787230910730436701070207188106628949910641494131066467725106784689110787662121086727484))
 (.node 1 (.leaf 60317061060878307107458504610734951761069966167106158155810642028171055308476104623468810455366821043674275103590190410366222601040670377)
 (.leaf 60320041070196017107856652610782917831075378876106940219810668261991067703449106362910010593855701061392873106313332710660943691074171022))))
 (.node 4 (.node 2 (.node 1 (.leaf 60329071082228511108599790110862444281083454178107848659810797388171082734666108058183510786558961079846103108133613910787409811082161264)
 (.leaf 60348111081724103108112800710798906971078358203107791996810826720581082323042108345422610823918541083384491108428082810801668051078995158))
 (.node 1 (.leaf 60378051059033303106336323510664521771066581342106045191810546622711050772595104950816110484682911049390197105796233110601751111062247235)
 (.leaf 60383111076090977106897153310696328801071301396107613374310771175211079011151108318393210799875581079453137107635158110736107251069373547)))
 (.node 2 (.node 1 (.leaf 60473011057181212105695607210542120721054508480105381750110568554821057484918105789180610579897681057954314105846174210580275371057778135)
 (.leaf 60485101067468955104086044010362040991035461909104493748010663272121088466379107511817510674686561069110800106369743710489721541044009810))
 (.node 1 (.leaf 60633071069318009106842382010669762141069588090107409724110729310471070007586106913729610686610911067580766106783539310679161801068305972)
 (.leaf 60694011068872398106737727010646188441063880672106324637110711345211070315261106987875610696803061070990813107254022410711589321069489928)))))
 (.node 8 (.node 4 (.node 2 (.node 1 (.leaf 60708021071719559107197473710691896431069218324106815718210707611391072719494107299815010723445351072066304107375687210737836501073607802)
 (.leaf 60720041065736005106762362610663376971066822419106567300910649367661063262294106317838310628884451063597244106584437710666605661067555766))
 (.node 1 (.leaf 60731121075783337107422040610712784781071488186107182134510784071111080914316107722828410760953641075651834107710063310764003671075474987)
 (.leaf 60744071074531285107054720910708390381074775275107860104610829061841081220482107332515310662608851067158195106899276610727406091072394910)))
 (.node 2 (.node 1 (.leaf 60745121081769729107531477310719647271072712686107854601410880373501084884672108401397010830923731082885587108370210310823218841078332577)
 (.leaf 60783081065798829106056262710604435331064678392107009253910724652231073002373106668790810636229801060791691105860889610611952001061946759))
 (.node 1 (.leaf 60790071074528575106906531910687263031074849847107946251010809120841078070116107407202210730172511072508747107303518510712704291070136641)
 (.leaf 60805071061576841105454768610540012601061277710107083574410722878931066445272105498586810518611021055442573105849563910600563021058183510))))
 (.node 4 (.node 2 (.node 1 (.leaf 60819061049398126104977145510535402131063533909106348058110537286491037830913101623052609927925691008277756102252888710323841401044762074)
 (.leaf 60823071035890092103106076710352001651043572609104257873510423676541040044752103526079610307410891028633679103005664310279594321028154817))
 (.node 1 (.leaf 60839061074977171107923027010796338141082636579107919180310757258551072523837106870644210665063111065458222106620755710692862161077231820)
 (.leaf 60844071038182037103513933710360881451041888209104573340110460803581038770703103317419110349617881033384115103198768710333803001034456421)))
 (.node 2 (.node 1 (.leaf 60850061078637224108369646710837480401086310782108372549610791359351075555342107306473510715346621069268387107226293510725381181078826592)
 (.leaf 60858071028259304102859400710306336941031305990102538577210291761191031607556102797246110275089561024752340102697108810268924551028311207))
 (.node 1 (.leaf 60860031018300804102564809210240456391017700815099707024710094426721008718581101006747510256232101021635131101457607110199672641019874202)
 (.leaf 60865051064142469106934527910746652401080881110107165315010461387111034802004104756706710445854111040818785103734655110493790001061134986)))))))))))
 (.node 128 (.node 64 (.node 32 (.node 16 (.node 8 (.node 4 (.node 2 (.node 1 (.leaf 60866061066161809105695461810630231051078694873108537619810766499741030042852102217102010010547951005795983101308045110302960891045601011)
 (.leaf 60896031045317550105330828210495625921039584694102502716710184402431014647982105091395910607944121048606838102492450910221355721044362759))
 (.node 1 (.leaf 60900111076080650107149332810706413801071493841107685016710787494591083218897108105154810752095671075614860107721863410745418881070252788)
 (.leaf 60934101058700936102919308510140423311001358391100667540810098364741039992620106654861310800126541071191633105431343710431070411037340046)))
 (.node 2 (.node 1 (.leaf 60948101059347677100802866009952240160981628223098355125709943334601061191274106953363910784311031069957816105912211210377028691024335078)
 (.leaf 60994111087080626107745476810733707331072013415107357606810861069031094544841109708485010946782881090500649108712243410846389061082505107))
 (.node 1 (.leaf 61000121057050183105246465310485095721045806640104211926710401585661040189273104779848810598633621069681901106734305910600698091056443442)
 (.leaf 61057061068646295107069531310744812681076233494107528737310710290211066522646106537944710625232211060445067106054736910616106791066080720))))
 (.node 4 (.node 2 (.node 1 (.leaf 61110041080029307109186962910859907231084528650107882949810739114981071016157106685150810649709821066881217106845936410797980061087657746)
 (.leaf 61115041072332580108062193310804678961077165808107163297010684394271069261314106551308910608966181062875836106503081510675568321075805944))
 (.node 1 (.leaf 61133081042824304103624151310493090231049016240104395144910441592141044089060104379837110425679001040879140103946006810372983901036146447)
 (.leaf 61181021055809820105584427010494858071048627726104527269910476890481050683798105251490810527384001055365403105859625110650805151065911845)))
 (.node 2 (.node 1 (.leaf 61182111073366310106373636710596152601059135090105793887310676873931078286328108269387910809446201077108024107539994310726181841067887559)
 (.leaf 61394071068022633106871311410679082691069198775106889060910690393041068029884106763006810669311371066567828106728787210675388991068535835))
 (.node 1 (.leaf 61405091077823959106248736410593740771061964251107597697310877767381089205691108405260010788223751077724954107757214610713816611066191143)
 (.leaf 61419061066445055105087329210464779091052940867108225349610775389841064814487106204880310597798591061553572106635277910634659851055678919)))))
 (.node 8 (.node 4 (.node 2 (.node 1 (.leaf 61435101073823327105775796510545082081053880850106848696010828659841075693119108145007810822972631080413711107148182310616381461059385131)
 (.leaf 61472111074862391105209544710483266201047782791107641697210844870251077769178107785295010837334281082584645107542315710621365411056113935))
 (.node 1 (.leaf 61473081075397494105384257210539610811063860015107594967010853468481088341177108302142510744491461073015868107098095210672435411058368466)
 (.leaf 61489121083004377107632630010735124441074245896108089628810907114461086344619108518378510840689631083712301108475625410833166581079784399)))
 (.node 2 (.node 1 (.leaf 61546101072792181105154944510494794481064748106107694320110718614521068666198108231027410857844841075740877106607609810663887981058870892)
 (.leaf 61549051057928621106919512710685110491065361045106088469310573159871043522128102238017609908074630998467540102448261910487544211066181831))
 (.node 1 (.leaf 61554061060739085105029641710528897461067420185107819537710747720551060675687102974158610095685271020670472103416099610471927191051724456)
 (.leaf 61559061071820759106388553510678705841080007566108777112810826883921066302663105453936610477423041046947398105118031010640264341068179483))))
 (.node 4 (.node 2 (.node 1 (.leaf 61573061065137317105697581610610182841078347882108368399310684912711049527668102007646510023345911011150362104020247210548440151057081729)
 (.leaf 61591111077425937106573268110680759211074430752107150125010714705401074263857108596094810836244291085198385108300834410761914881068835808))
 (.node 1 (.leaf 61593031023400841102713862410249910791018233480099330480910182806901018641302101477929710278027361032729099102269262210234170151022982043)
 (.leaf 61594051075864117108194185110815067891083511989108057218510750097071071742725107169913910695083241067332428106875378110692108241076096245)))
 (.node 2 (.node 1 (.leaf 61602051035882336103860758510411445331040685097103835176910346242021034183841102806890210240040921026662448103484587310359115311041950122)
 (.leaf 61620081088596023108124262910834463941088660965109401546510948343401096301358109249944710856209641082921957108422089910832388631078130859))
 (.node 1 (.leaf 61622111076898159107247224310718533901073011798107783909410797073891083791427108231750910758765371076107377107809455110752949321071497314)
 (.leaf 61649101081955805107036457010682776581069781065107126551110825145761087935102108915241610904724601087553811108101406810775401591072223810))))))
 (.node 16 (.node 8 (.node 4 (.node 2 (.node 1 (.leaf 61653111054183047105108921110496369091049819477104923042910492917891051143289106276555610604481531059452966105419100510506308411050724083)
 (.leaf 61668111078365415106399501210604170001057405318105315973210507948061067723472108774432210885650491091805307108783275310744112561067377221))
 (.node 1 (.leaf 61784061068515479107130880710775384801078471797107392245610690049481066253288106431919010615432621059487425105890246510579261351059659644)
 (.leaf 61795051087485863109916996910935783731093832319108837040010823183171077417510107459655710707428901067652202107115944910868016611095851031)))
 (.node 2 (.node 1 (.leaf 61800041081980117109313902710876953581086131136108057505010750389051072879877106809695310660829791067856966106986804310813653181089692934)
 (.leaf 61812071082445989108607837210865234201083912270107911490410799322731082907916108144164510791603561079996157108161411410792783151082204500))
 (.node 1 (.leaf 61817051044798984104259684910626261021051421021104694733410428227541040573322103873451510361431951033480615103190683010286615141033144981)
 (.leaf 61997111066521193106340045610608159481060689957105884305010661598941073172354106808746210690345751069541605106817700510662222781065202796))))
 (.node 4 (.node 2 (.node 1 (.leaf 62001071071466619107242828010704296651071252485107110764510728482651071889667107125550910705188221070216127107126579910717000261072687140)
 (.leaf 62038071063461697106071472110585930961062893067107222519110676994901064066141106227620210606686151059457822106074401810618806711061103081))
 (.node 1 (.leaf 62075011074077102107280693210691856831068631532106791574610750931991075000857107472367610746182621075343393107662709610759082081074856943)
 (.leaf 62103081073045681106220408210619121801066414047107387346010825193741083889195107747781310694339961067918803106751356210675990571065409561)))
 (.node 2 (.node 1 (.leaf 62120081062394091106207395510612396541065180604106790024810655866331062928731106301959210599738531058497018105843090210594906001061626857)
 (.leaf 62154071064702021105952500510593532441065865275107424595110751636451067264493104865227510459801681056921978106160229810641564821062396382))
 (.node 1 (.leaf 62159101046570196101721137510185323601033604440104706162010365488001041690848106074193210639252321047071418103562978010314744141023189466)
 (.leaf 62175041050348127106593586010639045181057666982104751188710332281531003059925095265334609381227840953080183101592877710318749291060567411)))))
 (.node 8 (.node 4 (.node 2 (.node 1 (.leaf 62185061081185195108617499810858864811088788660108554769710812860291076981296107447124310732746921070623692107407573010749265021082323507)
 (.leaf 62199071041697846104202459910449568261046493384104258774210431812531044008720103628169810361542081033582794103949865110406340911043354083))
 (.node 1 (.leaf 62214111078518730105653309010564902171066789710107987136910865253241084614450108562860910833912981083959977107984607810694646981060217677)
 (.leaf 62219081088935305108156328810836476441088989137109423810410950829971096616635109279065610859464191083236608108441132410834560211078487622)))
 (.node 2 (.node 1 (.leaf 62246111058055799105249441710498831911049679167104894777010489075231051010462106617319110682390471067667021105869430410517308071051382627)
 (.leaf 62251111084423289106927703410680564771070410323107461658210810499651090318564109498100310949434731091316067108444451810775828841070533619))
 (.node 1 (.leaf 62257111078668507106438550710607034131057540899105335517410509393061067634571108794331210888106721092120762108833780310746062861067536758)
 (.leaf 62342051080569437108724653710850825711086893106108654146310788806871074535434107111780010674215081063642462106550747710781788301086303570))))
 (.node 4 (.node 2 (.node 1 (.leaf 62359091051480661104620064610510257451057506201105756516710543500601053622837105321777010517201271049561255104749089210443738321043743871)
 (.leaf 62371041074005777108233931610823037281078784756107369326510698756031070810371106644294510623554891064519260106609698510686530731077110626))
 (.node 1 (.leaf 62393041046895067105302823610604407041051682304104559488510379563451034498388103129220910270356201024104669103898612010470875031053183964)
 (.leaf 62586011078429732107767624910751892811075073983107426310810780229861078874304107939970110794328731080493772108212653210809525011079651495)))
 (.node 2 (.node 1 (.leaf 62601061065339793107047954010697832881070732089106914001710663833371062953526105974123410569518891053230742105437125310591021791066819738)
 (.leaf 62653081067406234103860790710383886581058416516107623403910823952191080663169107050620310589398121056216286105730617010515971931044197546))
 (.node 1 (.leaf 62668071032819815102671276710319748021039997366104183735210414126471035095479102881276910198993711024330283102750528010248612591024821226)
 (.leaf 62682051052422112105270067110638564871069297511106674669310522487911017187411096867164509752866420988244862099431875310052675871031922740)))))))
 (.node 32 (.node 16 (.node 8 (.node 4 (.node 2 (.node 1 (.leaf 62683061081710359108657589610862903781089249322108602936210818809531077369101107475567710737275841070975312107425256010751999531082667518)
 (.leaf 62692071034740747103289448210353314811043090612104330295210449915051040741913102172320510074953291013020610101982368210279129751031377984))
 (.node 1 (.leaf 62697111080200338106806181310705993371076146865107392696210739288661076141375108866927310865232011087559417108512663010790207401072121238)
 (.leaf 62698071039460974104006247010422364971043718244104132825510424828861041289282103361470010327443651029224939103542189310373857181041402351)))
 (.node 2 (.node 1 (.leaf 62704101069936115104709036710483079141053803638105295745810655386201080671026108599129110823423691070059998105772778710507103831048886216)
 (.leaf 62705061043763283104529707810491831941048091692104911820910457673801043683143103733408410315545951031413733104150708410417039171048822343))
 (.node 1 (.leaf 62711111082781103107689567210766933231079295349108396514110853847671088673610108741872510817282161081660199108373116310809229101076290956)
 (.leaf 62840041085562068109778099610927587711090982916108497903510793552481077516282107367008710703388431072231803107418856510835924201092958133))))
 (.node 4 (.node 2 (.node 1 (.leaf 62859051059345451106247103910667699371067186748106212716410567994501052066498104998187810491626691049634202105744991710597626151061893867)
 (.leaf 63036061065394821106920978910691106441070475762106904100510663603631063295670106091628810593463871057825944105788809710594059641064929707))
 (.node 1 (.leaf 63070081074475140107409809610715517871073127320107589867010768234921075239489107453803410739074541073111563107431544610746307331074742199)
 (.leaf 63103061073356549106769099810682482101080497802108865874310843842451069412829105498384910449334191045288883105032343310628310601069994413)))
 (.node 2 (.node 1 (.leaf 63111061082696382108764325910875325351090550032108759236610829792521078673256107568822310744098651072054733107469417010757905031083559710)
 (.leaf 63115071056048409105494416010574495831061332941105849637810610620791058984679105129073310471049831044369475105171966010541567591056328090))
 (.node 1 (.leaf 63135111080968787106020136710611946011070735194108219266110876254621086025761108776192010855772921085669212108245777110733650541064598894)
 (.leaf 63151111082307352107387700310724294671071648861107400837910791864841089156384109066350510873432951086084829108383694210789460031074205725)))))
 (.node 8 (.node 4 (.node 2 (.node 1 (.leaf 63157101074397553105291765310398319471019264778100674041610071342921043456512108363107710941565751086081255107084947610620482921059215706)
 (.leaf 63168111072771135104041604910114715410993417290100761333610270194381055991350108172223910910429271082984482107810272610686918081060257041))
 (.node 1 (.leaf 63171101075255216105395150910495375321048744362104933423210572598651069916424108603919210925276961086718774107156167710617765191057930055)
 (.leaf 63202081080701946108072159610777919481078585721108091063010835848671083258820108234074510801697821078447171107855343910797022681081563225)))
 (.node 2 (.node 1 (.leaf 63227051089050852109800981810967235641096057841109293622910862062611081813416107852267010755506341073411208107455688510827967691093705673)
 (.leaf 63274111057263011105219869910497551131049902158104974587710543115241059575812106357956110632834911059539621105820002410568175681054472041))
 (.node 1 (.leaf 63357061071295819107227869010707423541071975404107133954910717559741070858963107089480110706762781070394287107120943110712358521072188242)
 (.leaf 63375071066884659106537945710623905281066372895107481761010714166791067489565106629840610649700431063197147106484004710657463631065613840))))
 (.node 4 (.node 2 (.node 1 (.leaf 63452071042464603103588527710407614901048725489105589089610582598331046254129101813319409982606151007804538102448371510267166961029136267)
 (.leaf 63455051055786489106021096110615272641065479082105943200210556396881049946463104548207510450594821047877348104917386610500722421056840233))
 (.node 1 (.leaf 63518101074577333105463065210431824731028484529101318592810092173041038309454108275400810942487731087147842107260365210624275451059788592)
 (.leaf 63540121058336958105188439610483927531046431314104310982810417997651041476884104800943010624063791075194336106734135810588532041055088611)))
 (.node 2 (.node 1 (.leaf 63585061068667437106571063310676614651075460545107414283810703687641068654809106826017910675596981066688559106640717510654705711065504271)
 (.leaf 63682111073240946106949744010672268121067126646106548062110710124831078858992107516657510757928531076390166107527211510730674561071227613))
 (.node 1 (.leaf 63730011082878579108258735010797038971079696493107854251810827853501082893422108333709410833232481084020814108516806810844632191083797275)
 (.leaf 63773071078011934107826271610771149221079874259108079444010804794221078342237107746869510756797031075437265107665562410775625271078471405))))))
 (.node 16 (.node 8 (.node 4 (.node 2 (.node 1 (.leaf 63777061058134163106279579510651009731068170292106365266510583137251051194979104571874210450895441048017312104951407810512567721058744288)
 (.leaf 63792061073983362107093856310701927321080889804108875733510848275941070279480105527553810456765881045064769105008900910622503061071615298))
 (.node 1 (.leaf 63800071063273146106281471310655857261068481805106616390310687162271066124618105793230010532208901051111722105792116810625620571065445670)
 (.leaf 63802111082260546107416932210732398421075749657107555010010766165991079023954109353705610888966141084870213108328763610796148261075775285)))
 (.node 2 (.node 1 (.leaf 63826111083475334107470944410740686761074134254107563313310821315701090644293109190718710890449541087544039108496728010808500801075724380)
 (.leaf 63840111072532023104133729910150978220994714792100677406510319134131055208685108088151910909642601082880254107783097510688707591060501003))
 (.node 1 (.leaf 63895041086958953109921932210942004881092168251108663873510815352121079194728107494090810721289551073407188107502896910841238591094012690)
 (.leaf 63995081077020839107541957310736718331075513920108297537710824534021078258750107713573610757729621074710158107543642210758144751075884555))))
 (.node 4 (.node 2 (.node 1 (.leaf 64007041063406992106542749510636985311064811090106333331710627675281061726512106177824910616674141061843258106369413810644377681065488769)
 (.leaf 64052081078447020105761784310571148621074057861108823619210895695451087789851108214778510761019341075503331107393489410682690041061939834))
 (.node 1 (.leaf 64053071078524579107861679110775427591080625114108165542810812591041078947938107800171810761457891075709479107702878110779180021078844049)
 (.leaf 64067071068313848106049650210639162261074239711107859287810823561511076458548106079638110440224661041784962105059149210579496421059507925)))
 (.node 2 (.node 1 (.leaf 64068061073999732107150249210704741561080848245108875033910848652881070299647105381757210440549941044860653104997828010620399271071828546)
 (.leaf 64070061084495942109036693110906261981092351564109054046110849887811081062561107729800910755897091073849963107564344010778681481086069050))
 (.node 1 (.leaf 64099111084775013107578637310751680551075518286107775570210843999051091960109109312715510907167911088860346108588084810822657901076803992)
 (.leaf 64114111090541071107718500310735886431071335458107045071010758012221089249553109899826211018765601100688936109444125010852151571081285125)))))
 (.node 8 (.node 4 (.node 2 (.node 1 (.leaf 64249071084483125107304296110684323881069229276109055430410991532811090048929108430158310822103071082360364108409428010810393121076170859)
 (.leaf 64258071072668247107325715810712513331074141972107732031110763831501073246577107119005610692388521068055416106935774510701568491071799581))
 (.node 1 (.leaf 64282061082053256108329775510822671001084166209108664303910841445261080720062108012597710780731581076958981107792622810791015901081347979)
 (.leaf 64292081090547366108159093410821916651086215760109189652310992089321100316345109445837310857929831084468789108437405010852265431083673691)))
 (.node 2 (.node 1 (.leaf 64304061057519177106211871310640775531067531330106344580810581857301050534030104300045010419000301045310178104817751910503803891058168795)
 (.leaf 64333111081441339106248924610594420171065527082107537392910858425921088526309109050849110870502201087631798108286912010724249591066715331))
 (.node 1 (.leaf 64389051098685081110937108311054201771104172662109995611610936150301090815203108661414110835301211082121598108332106310942820141104611741)
 (.leaf 64483011083201038108304424210804154781080344282107893274010828943271083050413108352287510835527181084353278108564137410849890241084322306))))
 (.node 4 (.node 2 (.node 1 (.leaf 64501101074442290106833685010654368431064391032107009143110786013501081055692108027155410774738861074913333107400916110721989361070577883)
 (.leaf 64504081090567270108163685910821968951086227619109189094710992099941100337925109452888910858646651084501644108440671110852578961083722337))
 (.node 1 (.leaf 64521071072377875106035132310605731491073239268108309302710843700421078973520106668141110512174221061924917106794689010681535391065216077)
 (.leaf 64543111082224628106391847710607851891066152950107561374910860891441089291948109095685110877406951088481026108350734110737568631067631163)))
 (.node 2 (.node 1 (.leaf 64549111086554691107711179810767067061077813422108150461910875647361093529915109471972110919983381090599470108695649510833590721078525824)
 (.leaf 64561111083257458107057669110665276821065082887106372689210683219271082153658109155180110949401861093735590108802593210786459171074518043))
 (.node 1 (.leaf 64594051100422262111095872711079762571106744298110200533210965103601093557203109054047110864669421085062006108665569610958024961106222586)
 (.leaf 64688061084607662108605955910848996531087287096109062202310876468351083756463108331937210818246171080302394108142468910824955901084130867))))))))
 (.node 64 (.node 32 (.node 16 (.node 8 (.node 4 (.node 2 (.node 1 (.leaf 64694071059579463105266585810527381981060094783106674544210737110981070820012105903760110408499851032716466104258564610497943701051896974)
 (.leaf 64699071069519382106201793510697306491078687090108137441910830097771076990179105711241410231416861027118659103670521110488345671057010933))
 (.node 1 (.leaf 64717071070515952107155582010732117191076618314107509415010759445011073217252106607655310604607761057886224106142493010674976451072628188)
 (.leaf 64726111082661985106508734410616725751066442064107564568310862406871090103747109145902810885119091089471372108418229210743687141068402699)))
 (.node 2 (.node 1 (.leaf 64733111075574134105789065710485153021036434271102484782710213194831025772612107726364010946644961091404113107708779410656065491061525410)
 (.leaf 64763061095254457110278077811030263731102843263110130318310955888121090230139108673433510834513611080044330108074654110855470061097386594))
 (.node 1 (.leaf 64807101072705183106009024910566040611054905711105526736210674839071086646290108217466510766405411075767104107231448610664603621063494904)
 (.leaf 64846101082008704105653864410524827101055195778108344285510954669221091325040108417665510868493811082947091107723275110667463811059043232))))
 (.node 4 (.node 2 (.node 1 (.leaf 64857081091597581108505577710842332181086700143109069185010959141431099640241109863193810913247671088082833108955777910905227311086681439)
 (.leaf 64878071045653330103948860110411566961049105580105156159810573652761054679343104182813410346836511033826729103930229510388380201038604755))
 (.node 1 (.leaf 64880111073863991106485431810617027521062556273106761092510779115021080903390107917876810766900601077720832107572696910677440101066080360)
 (.leaf 64881061073922161107280272310704006851079780166108828063810852144781071581615105416183310437634521044156531104936023210601132171071232582)))
 (.node 2 (.node 1 (.leaf 65000071058015776105787613610563261861057188011105779689910655289361066862686105796314210441120231042326819105350205910582690001058278263)
 (.leaf 65018061064256849106097899910633677601071269157107887858310759906591062907582102678956910044935201028147077104476887410511573681059561802))
 (.node 1 (.leaf 65030091086056971106742463310701486851077213436107911712010839268921092347415110202491710982407121083637951107476086610686355021067676212)
 (.leaf 65042111081099366106326865510604033421064466367106668578610765354321087566570109188173310896069621087021996108463175510754887491067859996)))))
 (.node 8 (.node 4 (.node 2 (.node 1 (.leaf 65051111083180461107231123210676717621066202461106359513610661439911077036222108976601710944967611094109607109039415810811574551075667903)
 (.leaf 65129081085179895107433396510696481861069820405108914340410998186761091348059108544655510827143811082572238108444611010827773521077550697))
 (.node 1 (.leaf 65141091076524157106893410910658478851066910972108031050210833336031082538413108154137310786553401076105783107581370210742356041071628575)
 (.leaf 65147081073771529107224419410705541581074774933108062138110823959481076241706107377261510699660401066851575106545243610640337721068417828)))
 (.node 2 (.node 1 (.leaf 65148081091493733108331521810839759921088653129109309539011000203781101351362109587130210867373201084961353108503777510861923751085034357)
 (.leaf 65162071062302501105881488210620128121068128015106670774910696039291067753071105895040610534583571051495883105741672510589230921059097699))
 (.node 1 (.leaf 65163111074038987106507260810619671941063628451106827186410779000221080975644107934823910769209231078067516107608701410680271921066223013)
 (.leaf 65166071058857674105840240610613915031066122451106181701310652597301061622454105404803510499447791047466545104979696310572897911058782763))))
 (.node 4 (.node 2 (.node 1 (.leaf 65179111082166539106524829210612717871064616298106651094810753475911087515486109248117710909900241088286338108591068410772912391069604761)
 (.leaf 65212051101774494111210422411094281871108157202110459685010994339091096495900109289693310898028021087440504108929262910952895961106185290))
 (.node 1 (.leaf 65219121099712732109266713210936459961094549668109780780511003531131101517110110450585111023320841101822015110224126611001772331093999386)
 (.leaf 65247081071131162104373505310407608911040286627105735154410887391481086071021107298716810675227111067730324106656206110549736601047727746)))
 (.node 2 (.node 1 (.leaf 65273061085218426108654888710856355581087908393109093639110894791441084631913108386798010825872641080896446108188798010826195451084466037)
 (.leaf 65293111074600449106549134310624427261064986159106995029810789067321081762506108005812410776791021078943948107678203910685855991066600034))
 (.node 1 (.leaf 65306101100580910108979289010905569961093922639110050896811058933181108148500110759317711052190211102311481109804431610947313291091437438)
 (.leaf 65451011043896282104286647410413467761042152376104226837710432183781043415525104445234010459449821046070252104607374010447517121044194458))))))
 (.node 16 (.node 8 (.node 4 (.node 2 (.node 1 (.leaf 65498071082620758107746381610821562791087641160109054117210931734041090742469107694767610655765921065530865106705411510729957991076202534)
 (.leaf 65511111076887073106679588110646250001068055084107545353910817252171083158601108242861110809285231082437713108053465110717596851068379896))
 (.node 1 (.leaf 65512071080006177107846255910814970141085313717108368917010857231931083632871107520795110700904401068497235107407724810788190691080778453)
 (.leaf 65523111084549833106785090510644667881066122099106703541910755041221089771004109551296610945325631091931572108935605810816309481073571679)))
 (.node 2 (.node 1 (.leaf 65532121078105824107470824710700832221068486830106610764710656804201066208217106997791910792108701091535792108926346310821305771077351305)
 (.leaf 65585081082371509107900447510765611801077933744108563800610901016211084303870108308040310813264751079273678107945639510797875101080281494))
 (.node 1 (.leaf 65589081083852381106709261810618670041060707745108844476710972098061093555294108590806410826527441080303718108093789110798808431073946937)
 (.leaf 65596061086089587108731587410865813031089018746109160263710909039961085778423108468083010833317811081912006108242337610829454121085002899))))
 (.node 4 (.node 2 (.node 1 (.leaf 65608081068594817106368063710660121171073203881107648944310800724711079153348106941346510557457251044847519104374467010514087171058864147)
 (.leaf 65622111084962739106844932010651680051066315773106709082710751981191089747436109584040610953041951092507031109010291110823695831074150959))
 (.node 1 (.leaf 65687061083871528108491329310843816481086454967108942883310881888331083604590108262865110808986221078763674107940184110802529811082938098)
 (.leaf 65691081096329767109104495610923841431097436822110009463011051574591105769285109929358710893129551087018169108813840410905061621091566027)))
 (.node 2 (.node 1 (.leaf 65698061097684633110046712511009606111103968477110249022411004682541096996576109336706110910654501088898496108859324710910913121098259146)
 (.leaf 65702071074792967107627980810747841671080254399108768157910864754341075221035105840811010465243511044893261104881185910588213631070899729))
 (.node 1 (.leaf 65762071092081784108117283210761427781077884590109999116511060771721096340748109126174410876219431086621576109057769710908362261085133726)
 (.leaf 65774081096321103109104772310922662631097320009109996629311050000691105855262109951455610896552071086925019108813301210903217671091621889)))))
 (.node 8 (.node 4 (.node 2 (.node 1 (.leaf 65783081067686387106263722510653917311071872229107555668910788171631078108012106862702410549146311043883383104264145810502498191058027643)
 (.leaf 65784071082289071108145614910832826041087671478108559012110874504851084968968107680667710720613921069490779107471791910806424741083043342))
 (.node 1 (.leaf 65786091092007216107584471510802922841090125658109296908210934480051096535480110579824211015377281087360818107744116010749348401075704860)
 (.leaf 65788111053745959104619743010474894231046449402104744647510458498201046617361105333758010654873071066409006105964163310434710441041975247)))
 (.node 2 (.node 1 (.leaf 65811061082300485108245379210897685421092070312108926440810848235671080800594107786296010747798481070492623106824360310662370931073892028)
 (.leaf 65844101089770591106637673210618314221061243812108576795011017640871101073961109269365310934913941091209626108794013210811666451070620597))
 (.node 1 (.leaf 65863071074880256107658640610749653441080103158108743772310866549741075705519105953702810479897991045283820104884481410590409801070695371)
 (.leaf 65893121060452240105576223110525698311053266230105348465510551441561057903650106065117410658129791067396729106864340510645208451057179556))))
 (.node 4 (.node 2 (.node 1 (.leaf 65927081096544412109169940710927441941097794478109990465911047799831106050449109990873710901702001086674715108814033110900429651092085615)
 (.leaf 65935081067845853106426425610662611131071490300107511120410781804641078186554107003141710574441091046089799104353323010500197571058294658))
 (.node 1 (.leaf 65940111084173685106487418510613083261066707356107630090710876863631092562836109416218410916717491090838332108483243010739923791068414678)
 (.leaf 65958061112575797111478601711170868251119565951111856594311164076881112093545110948716911073166451104257184110397393511051524361109076666)))
 (.node 2 (.node 1 (.leaf 65959051088563116109894159511011917721094188183109333330810862692471081131813107817454310747764931070221872106836584010681242051088201381)
 (.leaf 65962051105818448111329829311119692941110060482110802342511043566501102881023110135060110990571921097714503109951240810998870181106947447))
 (.node 1 (.leaf 65989081067085375106570954910639581611064957706106412610910685554201075446154107388954310658457061060680087106285276310659032971066152324)
 (.leaf 65991011084769654108435379310812680781079632984107670770110798497341083593534108552448610874019691089178442108989827510879194041086375832)))))))
 (.node 32 (.node 16 (.node 8 (.node 4 (.node 2 (.node 1 (.leaf 65993081071552109106578518510654387461071097510107694353510833210841083409159107467635610588526151048476872105403114010605468191064855362)
 (.leaf 66009111084700420106592247010623776351067141620107643498410877427381092745318109473619010922916111091527362108573759010748397491069588157))
 (.node 1 (.leaf 66062081097390634109353616910945541991099251070110041356411050012871106344833110027114910907082101086663790108831975810905567101093295939)
 (.leaf 66093051108252693111469601811134644061111410958110953716911078097371106677695110543107611026666421102063291110389563711029016451108407270)))
 (.node 2 (.node 1 (.leaf 66136111085338638106663282910629671791066967921107601617310874795891092990058109558290010931833701092446655108702566010759101421070768366)
 (.leaf 66183071082754027108347023110833457121084931473108721961110874812231082893090108096238110793518071077352948107769146710781008271081171952))
 (.node 1 (.leaf 66190111079035053106852895510662820421069618520107685695210834703631084513623108346587110828499751084503587108332556510750022821070775232)
 (.leaf 66195111053425963104564549110463402331044731817104310457310440862241044274675105045166310623144791066776018106342289910476454651042926176))))
 (.node 4 (.node 2 (.node 1 (.leaf 66196111085734277106696560810633536731067037804107596965410874913241093310872109611360810936868881092946312108758223410763580031071249597)
 (.leaf 66206061108018429111380089211161651691116454840111590569811106011011103088867109975458710957625151092096570109144393310948668221104827199))
 (.node 1 (.leaf 66231061075097856107560040810748133911075946776107554816910756028701074896136107486427610746477101074311003107476493310747561521075422446)
 (.leaf 66233081091820923108882467910860005911087810798109804066611003153731094195568109219363310905075331087868111108751368110885761861090142320)))
 (.node 2 (.node 1 (.leaf 66317051087163551109538135111009726371094537403109402003210865802481079982597107670706910716510871066151233106520258510633100181082174786)
 (.leaf 66320121057525395104867384010487926261050910183104974416710510299911052831442105833775810613260581066089199106536431710622948111051556509))
 (.node 1 (.leaf 66347081098254353109830025910974889171100208646110218941111017130811100135173109904047710951393941092204128109286960910937901531097224446)
 (.leaf 66365051087073452109516565311009556641094529501109405868010867079881080045505107673806510715700471065794626106386572610619739191081470051)))))
 (.node 8 (.node 4 (.node 2 (.node 1 (.leaf 66366061090952586109292415310990634081100488442109657849910927462841088786879108625323810838235181080952892107861832210764004501082087534)
 (.leaf 66391081098355991109846216710975315231100272518110215681611018451891100241107109916260810953936461092289704109286586810936903091097220432))
 (.node 1 (.leaf 66401111094386812108158065210759414731074867751107421197010780713651091679958110259998911075011611104684230109997328310930342271086485100)
 (.leaf 66411051108897365111432125211141760581112060313111055056111087031751107896797110760808011044578941103325291110589638011038992271108070229)))
 (.node 2 (.node 1 (.leaf 66427051068319846106928049410681120511069225233106852162510683197281067250239106733985610676209091067726199106859367710686220041069226140)
 (.leaf 66468081074150538106711417410669299481072037623107743228110831393961085204559108110335010701296331059721892105645037410598519621065371096))
 (.node 1 (.leaf 66503081074165371106708748710668970691071654077107720643410829816021085225323108159229310708859661060356087105665619510595630971065070139)
 (.leaf 66532111090500288108580388510828734451082107154108254824510924934591093518536109229943510942507481093530118109261789910903142561088038683))))
 (.node 4 (.node 2 (.node 1 (.leaf 66602081074548755106749017810673342181071555846107709660910828757781085474634108268017010735029041063058314105821566510598119641065140043)
 (.leaf 66604111097138146108236020110786377671079868785108428746310950914171102243116110739199111045642001104879031110097979110917288821085509352))
 (.node 1 (.leaf 66632111097553963108273573510794971491081188124108511977410954580591102457004110756835711049460131105154666110121718010920672571085935907)
 (.leaf 66653061084357372108532769810845104061085814112108520303810850026051083876067108362448310832051121082979017108371599810840501231084979807)))
 (.node 2 (.node 1 (.leaf 66659081074871557106797306310678647931072359058107755247310830688281085597958108288196410740298531064361321105945293110607580831065634626)
 (.leaf 66663101091284622103985019110572906201076608768108757885410910597141091951229110195347411079864011099218085108040808910488745251033334597))
 (.node 1 (.leaf 66686091100984097110062858510998554011101223201110135312011020209571101632084110177064811013884141100644983110067930211001529931100459480)
 (.leaf 66708111091158702108636277710833052691082555149108394356610947377761094553331109284064510946318511094141099109334725510909124401088718086))))))
 (.node 16 (.node 8 (.node 4 (.node 2 (.node 1 (.leaf 66709061084470524108543921710846246481085955921108535517110851600011084012854108375065410833034481083057657108378563610841256421085075434)
 (.leaf 66711081102418871109686683210932368141093404472110470965511152940851108415920110334164811005145871098518511109916529411000935391099545621))
 (.node 1 (.leaf 66739091101253502110091064511001118381101528849110169937211023784751101923574110202806011016100511100842251110089575011003842171100728936)
 (.leaf 66759061089010400109070611710896942041090991367109024313910896471571087985522108760676610870329141086725057108790710010886320011090294054)))
 (.node 2 (.node 1 (.leaf 66771111084253069107960103610778050971080490200107744235810758649441076037647108005345810942273121096892109108703367010802055351078930620)
 (.leaf 66795111085756064108107275110786941431081318463107822305410768200151077639365108250444310956144651099119100109020013610826789801080993704))
 (.node 1 (.leaf 66809081102494659109735405710935770531093519001110274817911152545001109095751110384071311008377011098835335109912144011000230611099798806)
 (.leaf 66832061089218240109081967010899171601091126497109052256510899151931088200436108780034810871934631086865792108805221210887945981090499327))))
 (.node 4 (.node 2 (.node 1 (.leaf 66842021077393969107740675610721240441071290246106864517210668265541067133933107268786310776629031083749011108570828010839620471082380821)
 (.leaf 66861121071596608106525285310614967781063636256106663711610723519871074215661107284211810745979611075961729107830313310744460781067765304))
 (.node 1 (.leaf 66937121091525182108728605610840609291083302132108303218710943198961095716520109346905310944031731094575299109406855910917002361089822395)
 (.leaf 66996081102694690109867166910945496211094173846109933592911141241971110945128110523235511016624311099351577109906926310997298941100349649)))
 (.node 2 (.node 1 (.leaf 67017111109487584109962794110981693131100743962110432038411090010481111320542111728702411157229881115809068111393816111079949221102313486)
 (.leaf 67034111109543470109967828510982529661100792676110434487711090238551111367659111736463911157758781115844751111401577411080642991102390788))
 (.node 1 (.leaf 67080121078090714107300664810704717271074603292107483045310727860601072140221107488028710819255831085276103108613609510830113111076707260)
 (.leaf 67082121090292938108476233010793954531077219578107673647710768300861076652757108646738810981411211100485986109929533210933556111089130296)))))
 (.node 2 (.node 1 (.leaf 67108121078243628107315331410705963601074645975107488707310728638221072176790107526525810822188051085391015108622545910831257801076846046)
 (.leaf 67148111114710985110499737811048874821109343252111431904011167846651118334193112072077211176473701117594871111672203311117035681107428655))
 (.leaf 67322011087580018108671472710824389401079447096107553107610748927451074538900107502912910842770851096086097109908359110955157551091418648)))))))

/-- For every reservoir or regulated lake, in the order of `/repo/input_data/static_input/routing_order.csv`: its row in that
file (5 digits), first month of the operational year (2) from `watergap_22e_startmonth_w5e5.nc`, mean inflow (10) and mean inflow of January to
December (10 each) from the files of inflows for w5e5, as the 32 bits of the binary32 number. -/
def startDataW5e5 : DTree :=
 (.node 1024 (.node 512 (.node 256 (.node 128 (.node 64 (.node 32 (.node 16 (.node 8 (.node 4 (.node 2 (.node 1 (.leaf 4785111040320317103494068810333704511033296741103633400110498530601048736101103653672610339116551035406843104301719710392105111036906417)
 (.leaf 4788021030019096103009916910270391301026608259102458488210241717111028723460103201723910327728421032721779103302680210324077801031951180))
 (.node 1 (.leaf 4999111047024293104084511210343753371034724824103746845310562542301059100970104926458310422631131045272725104910195210425076821042425297)
 (.leaf 5002081032025303102269846910185039451017475342101598524910329101211048953024103466195310306857451028808271103175379710292391491025689838)))
 (.node 2 (.node 1 (.leaf 5946071039665974104063813510408165751039745916103866159310420328401042644421103913364510340736781036181758103993107810365955081040154136)
 (.leaf 5951081036345523103474397910330780391033201237103292496010403467471042311757103944001110359333701034612906103568706010358112211035771272))
 (.node 1 (.leaf 6156061046270404104898231110487288901049849028104862236710480437471044963018104344669610422977691041992960104366753810452232411047548687)
 (.leaf 6401081038308499103476667410325876841032014978103251275610497489901043196356103950779910366285741035214325103655132610361774611035878521))))
 (.node 4 (.node 2 (.node 1 (.leaf 6631061038385621103772734610348976351037525705104147178310449314741037039412103514459810344616821036548392103879995210369969851039054020)
 (.leaf 6861061028172377102560701910240557711026368965103845690010344112081026328300102458938410236724051023463012102618278810282093911027452842))
 (.node 1 (.leaf 7724121034254918102954948110266898361030137320103846623610408298591034702294103459066010339622391033513751103513779110343618051033965415)
 (.leaf 7725121032910722102802828310258679101029672281103759528810339401301033010900103334628410331807121033574478103468693410336298811032481645)))
 (.node 2 (.node 1 (.leaf 8146061041763550103850323510355952191035174522104206502110539657791041199933103624530710346750891036860463104288740910429354831043630099)
 (.leaf 8147111038480691103338776210314929451031849742103591827610486420721042417400103938875710382111251037563543103890377710364042671036618873))
 (.node 1 (.leaf 8331061047768506104683251610437760901044018901105047856310543773731041614264103802627510404205921045596017105009354310510212271051397722)
 (.leaf 8516061048995258105063982710479323911048546904105142396610498813011040634944103749500210406622791046624360105211661410532762691053256081)))))
 (.node 8 (.node 4 (.node 2 (.node 1 (.leaf 9032051008140307101081401610101838291011332273100950777710076508461005638037100478259510037288661004692173100738035810084157591009712066)
 (.leaf 9940121036792803103134733310269892511026047200102445224110381962601048839013104057553110381841961037857075103941642610368154201034048347))
 (.node 1 (.leaf 11407111039165385103072463010275263791031312217104134772210508187491049594284103558692210308739261031123752104075736410361940171032117535)
 (.leaf 11409081042838032102701652010270884231036453591104889641010566276351051822407104355277410386782321039670978103929755110376909321030072691)))
 (.node 2 (.node 1 (.leaf 11610061048815796105112981910503682281051405634105069792610506811361047358373104087247510331865891033472138104781659910539872941051297415)
 (.leaf 11656071038591850103164874510278147531031900221104265581010527253451041048922103462307910319578401032746363103685140510379736571034922430))
 (.node 1 (.leaf 11772041051258906105760059210556820181052907060105092322010499436891047000339104135966710339958811035353189105108174310583650791057384330)
 (.leaf 11774051036804855104330263710426269871042128297103877661510365171281033422790102982543510254016491024015630102773858610368331461041827043))))
 (.node 4 (.node 2 (.node 1 (.leaf 12164121047410908104310313210432142011046051035104902039610521237531053032621105104988110425060731039260165104610419110487791001043096982)
 (.leaf 12208081039170341102739936610240088281027030155104187863910527756021041598358104071136710375206711037124990103845912710365744741031869911))
 (.node 1 (.leaf 12346071042721908103767754510401993231042840355105022314710554662191047654294103499201110319207041032032483103922052910410639151036388929)
 (.leaf 12395071046242825104795898310453858061045383280104553410310568153741049230475104396895110412633391040221566104113850910428672751046252396)))
 (.node 2 (.node 1 (.leaf 12396071045137945104653358210440933251044592700104719908410540292021046370029104334788610412304451040222265104101782610424366111045129186)
 (.leaf 12576081042541080103263366910290215121033736766104597897010576436771044536723104284367810402013101039116432104132215310412156271035816038))
 (.node 1 (.leaf 12592061046945785104931116210477536731048385704105129673810529312121046161704104234236610393348781038234731104229043410458411731049413973)
 (.leaf 12613081047453559104554028510436176081049664828105052052710510573231050385842104884610710443563161044484681104296702110443506671046056870))))))
 (.node 16 (.node 8 (.node 4 (.node 2 (.node 1 (.leaf 12717041050004884105995236810578191301056474966104934530610431041251039279758103413538710284746021026503865103372775210521778381059144649)
 (.leaf 12719051048674039105701228410574232101056343456105147503410469257011041228790103365736510264379421022261228102161557510435699131055950407))
 (.node 1 (.leaf 12743071038152305103577699110326537031032291023103821479110483458201040498407103704080710351719791035290322103757848310386203741037875516)
 (.leaf 12752081034791266102689332610241167531026768729104275294710472708461036774909103483768010326405101031373356103196383810325548661029955089)))
 (.node 2 (.node 1 (.leaf 12753081037112409103262681610291159201030581754104120048110491622761040558028103774881810349662791032992431103353662410347801711034598203)
 (.leaf 12914061010946026101245751310117118171013161718101234665710120803061010734083101066356110091390331008191832100901712210100094331011839243))
 (.node 1 (.leaf 12964041045746720105165823910499833071047879840104540691110435350481039841012103627869510325440871037167176104602205710504686951051455017)
 (.leaf 13067051048905952105641661010562363711053581335105071667510480194721042070667103428382610282738671028056307103598858410507063951055694508))))
 (.node 4 (.node 2 (.node 1 (.leaf 13288091038756054103884565010376719411039195737103845866610399522731040170365104029692010392604821037819297103775426110372854301038252095)
 (.leaf 13451081037849840103767658610353109621035755651103825367610422481911040798267103902445510361138441034578436103592570910371984671038642168))
 (.node 1 (.leaf 13454071038888671104073811710401374461041024977104098230510420112101040516608103805462110353902501033715069103471753310359202561039119406)
 (.leaf 13575051051162977105817075810591730381058011762105498924510504664871042762311103083212010253490971028976865103956099610539080961058135554)))
 (.node 2 (.node 1 (.leaf 13580071018006267101630187610259554881029935212102936231610263022991019627744100056194609268310870966434159099227173110008312721005625643)
 (.leaf 13586061030083243102260640410277676721035528890104766412610405191471026228977102055391610164907231012682689101029665610103984891015971082))
 (.node 1 (.leaf 13643061031873843102807816910270547601033928136104101132610430974521031306678101530979710059147051009959707103201529510313167001030913921)
 (.leaf 13753081033903781102803300010278855551030340272103327001910456792741041276111103749405910333212681029143766102751799110262709241026665085)))))
 (.node 8 (.node 4 (.node 2 (.node 1 (.leaf 13795061042690984104473112910443235731049621484105120564810454611471041976217103935738110360026651033524833103332920210354122861042015809)
 (.leaf 13809061034896439103728048410338497981038182682104268765410395489551026381503101561410310081437281022189882104057818310388693731038176478))
 (.node 1 (.leaf 13947061045387121105023571510532991671052387440105024276810484019941041136685103111234210254481781023518153102670147310466702501050058870)
 (.leaf 13954071024495746101666146210213575221029573286103762213510418440791026198800100122762209628024810985413647099534006709979544501011112029)))
 (.node 2 (.node 1 (.leaf 13993071039040945104005436010385855091040801096104271808510432212301040423786103740793410351204571033663849103478245310362418131039056140)
 (.leaf 14027041040405738104493328310431857921042403554103992390910333306511028435579102457233910223243651030632903104051840110489916201048690660))
 (.node 1 (.leaf 14028051041647021104478281010450655361044422082104185969010353864581030721168102639891510243192191032932987104339567110502069881049069685)
 (.leaf 14166071041334518103997252910391795051042703323104985205210497949801043257910103952011210352782971032983211103348292510351541651038751967))))
 (.node 4 (.node 2 (.node 1 (.leaf 14205061024075753102492756310302790321034041990102991431510268436411020967281101547808310099813161009658753101507649010166628171023915625)
 (.leaf 14328051037851724104983104410486700601045640000103788363910316519711024135095101800575210146040121012024211101092725010325855331045995821))
 (.node 1 (.leaf 14338061029460643101862463610216838781037299120104826822010405793301023695272101253725710090262481010920005101255660510122718861018180012)
 (.leaf 14377051033622429104482969710416411101035529175103488570110311830401023273020100833421709953287600994822931102051484910333692341044510772)))
 (.node 2 (.node 1 (.leaf 14380061029263533103894978010360935901033320983103404023710310551561025688932101656377610067690801004091564101016351810259511531035354881)
 (.leaf 14402051043885731104956397010489135451046721720104490892010362748931028254460102450237310232819821034036626104583239910517739261052233898))
 (.node 1 (.leaf 14410071027525174102264434010310118711037032776103594732810346417651028225524102361230610178607641013284695102046383310177275241021899352)
 (.leaf 14419081049233427103777493710387573581046851594105702960210558874371056105613105126573710455962231042729021104756154810481779211042917645)))))))
 (.node 32 (.node 16 (.node 8 (.node 4 (.node 2 (.node 1 (.leaf 14493091024154989100407322910022158941015288211101014776110027114781016268352104091277710401001391023900937102108926810140104661008907384)
 (.leaf 14512061015065258101484751610164630531022773060102433047810235175981006741104095209217400000000000964278858101406909010170385021015195641))
 (.node 1 (.leaf 14551061040654162104052735810418689181050731220105218428810416428541035708133103331865710296915371026685881102874177910323651961037302094)
 (.leaf 14554071040206591104150909210419483911045110604104644449210438317791040469058103611280010331837541031166202103228006710335421551038605728)))
 (.node 2 (.node 1 (.leaf 14566061025792105103235524910298393411032182859103489328710330170541025774094100380617809830212510994734336101162552110194466771028446361)
 (.leaf 14594071026889304100952538110151318171030251469104296836210344336661028181499101807477910161680541019446180102201871010245412741018873716))
 (.node 1 (.leaf 14732051046194578105507864110531291461046968141104730077510430827451031719684101271008610068478341025764560104512371510496276571057231163)
 (.leaf 14735041035533257104740394410451418631035786438103336964610274619531015124085100101692309946473901000806174102906381410374804021048691536))))
 (.node 4 (.node 2 (.node 1 (.leaf 14752051035756995103754003510382524141042600512104318528110345783281020196900101135329710097607161025106992103267188610431011741041932176)
 (.leaf 14757051025209352103308987210356606111033604620102779026710239204911013916603100602145510021766180998989842101085754410199768811032355539))
 (.node 1 (.leaf 14853051037667138104937421410496530581049549031104000964010323024421020954950101085095510044432131001542421100255543310275330931041642460)
 (.leaf 14885051039554050104151517210446387141047793952104219932910382623121035355328103400692810324189771032016633103235572610368166241041029346)))
 (.node 2 (.node 1 (.leaf 14912051032538735103728746710380081561038396278103519282710283984311021116074101778616910156734391017918006102611777410384610261038931012)
 (.leaf 14993101031555558100825291710058641961021103954101512924210099933231023551459104530576610497788001033259672102371202310208487041016027743))
 (.node 1 (.leaf 15029061029999149102731639010338962381036732728103345120310337275871027206837102973645110238484731024249280102476525110269468251027499904)
 (.leaf 15165101026080545100258795409987753540997859157103220524510352688001026804282103097103010395647021031756061101792648110108929221006533650)))))
 (.node 8 (.node 4 (.node 2 (.node 1 (.leaf 15188061027938491101547044410231028141034549632104341391010415394141024993252101565657610105290781011452155101545929410158553211016165953)
 (.leaf 15190081008963765101029995010091073361009761650100902809210095632351011270213100962062610064859171005730157100800054810087593801009413160))
 (.node 1 (.leaf 15209061033761482103649903110418294111045472518104067549710344858051031752248102545283510198406501017705355101854573010218616121031862865)
 (.leaf 15215051029173023104012879210381649731032640107103205565410286361421014582401099242741809690686960985518838101098852410281135161040791087)))
 (.node 2 (.node 1 (.leaf 15224051033440160104197553110423224041040612831103783127310302002891016107167100281240409935388911003360203102004953310350005721041786970)
 (.leaf 15236051027063755103508881510358891001035485625103188516610249402241007833761098302851809872266141000913273101508824410281982381035027509))
 (.node 1 (.leaf 15251041017463539102760613510312672541032132185101259589209949419950927535920000000000000000000000774053071099600335610133642581024609001)
 (.leaf 15310091032965142100665792910067143981010044078101795771510247167541036086454104951229810493593491031846681102342623510168579791010536880))))
 (.node 4 (.node 2 (.node 1 (.leaf 15316101039002887101847987510156406171031365724103647928210252496941027553288105247923210552825921041713900103174892310292543501023860221)
 (.leaf 15317101039918446101391069410118804521033397806103878296310257289211029298666105350995710558984411042572697103116045710296354331020733493))
 (.node 1 (.leaf 15319101029266794100421018310000007401005589662103539146410351661661023657581103397974710435623041036836806102083867110165259031009072985)
 (.leaf 15352061025092182102102171310228215641031582491102890598010275398791025040750102501733510193069471024964432102372496310243634931023142791)))
 (.node 2 (.node 1 (.leaf 15357061031874760103554483210379197281040434239103456231810328349751027710431102417504710210076531018504174101808133710289206931033198823)
 (.leaf 15379061010884190102385939610235140061018011701101431107010109888370999099244098240020509660420600967070085097476874709998350881016003373))
 (.node 1 (.leaf 15471101027100314101401556210125869231012608454101104451410115458701025782933104019003810435775751030931773102122137910199361531018637977)
 (.leaf 15483041039016186105252961810513352291049421088103601854910252633601015561961100398882909995240361000782755100253844110305549541044641620))))))
 (.node 16 (.node 8 (.node 4 (.node 2 (.node 1 (.leaf 15485051034517499104762455210490163731047206797103573184410240665241004973416097755655809481622860984776676099157594110216988561036751451)
 (.leaf 15487071042810831104333648010465905441050511229105038124510494459771046053367104181271210355110111029427082102603209410277515271036224434))
 (.node 1 (.leaf 15519061032242279103498062910399284211041870209103762001310353268011028870054102368969610204125621016582655101653403410240924621029873333)
 (.leaf 15547041037220597104600616010463076751041939729103578111610283253181015299094099487225709924429391012573842102863313910424305251049237122)))
 (.node 2 (.node 1 (.leaf 15570061037256465102802935910349043041049069268105506823310378570971021909657101636424410120184451009908268101843768810357349301037362146)
 (.leaf 15639041042278332105562009810533261061051446669104106169110290773221021027717101550369010110170551008915484101456425710406699261049713281))
 (.node 1 (.leaf 15708051027578516103788960910381451581036376272102870744510184526461003499207098152125209627533350983703708101109583010293750471036810681)
 (.leaf 15778101043897291102790712010305160471042103364104458430610338875231035777967105161658510575607771052967013103605191010402388801032323580))))
 (.node 4 (.node 2 (.node 1 (.leaf 15784051034557829104878038810487747421046427322103608096410246583601003425638097761422209734912690975851299098636446710234178811036203575)
 (.leaf 15802061036702707104194139610425996071044139827104141421310405032721032796000102700283410238092161020055675102306899610348328441040620756))
 (.node 1 (.leaf 15807061037841207104321706410460178661047286794104105807610389329761034752803103094217110276558631024971042102510850610299561031037184875)
 (.leaf 15809061035533900104122004610433233011046964989104036684910371269741032743308102683346410227563821019878180102212500510265742131033587394)))
 (.node 2 (.node 1 (.leaf 15820041015353197103162384510253197971017651395100859697610004877220975693040093992755709336025470928967559096543385810046218871028909618)
 (.leaf 15821041014027565102968856710246077901016766948100770224209967616480966533535092170421009215737640939781082097844134410066389591027324888))
 (.node 1 (.leaf 15823041016558013103040933210298291111019763365101503778310088763850970901757093336382809245597940935701322098903838810116998691026960263)
 (.leaf 15860061030581664102919561010306206681041547681104466663210363141281023204501099910869709632378010974669550100670553110253835781032678994)))))
 (.node 8 (.node 4 (.node 2 (.node 1 (.leaf 15863051036219785104277299910437481791043981619104076976210331660831012996225099196501910104298191017396980103221970110391561721044230188)
 (.leaf 15865061036427621103730775510422465421046038985104250456410382129781028948248102300042010187399691018290767103050323410383338061040329087))
 (.node 1 (.leaf 15879040993503265099831531010160744731008663459098254197209739922970956653005091601707809363526660959219265095767819609558369970959906238)
 (.leaf 15921101040908066102693242510299794121039457184103636668210321462861029614626104657855110536855811051821489103598142310329456801030935221)))
 (.node 2 (.node 1 (.leaf 15931051032662518104300790910458587351045718155103720994710267523181010875829099280616209874635800989884673098812339810154275771031284061)
 (.leaf 15954071028623588102609433710301822071034206371103020261810311214611032000805102646182410196863731024209650102693526810289103181029000317))
 (.node 1 (.leaf 15958061034267128103560229910384490791038725486103753541810356190461031601444102384009510195709051028348082103180167510385396411038695239)
 (.leaf 15966061033879450104063692910426570251043580643103871686010358774701031762626102490114110206440191016898543101590585210198513721033308691))))
 (.node 4 (.node 2 (.node 1 (.leaf 15978051029155978104047253110363804131033015121103170827210254333661012084585099610088109878323250990355750100805777810317465861041323643)
 (.leaf 16076041009094824102160055610281501241024360792100057755609451858160000000000000000000000000000000000000000000000000009443981100999719256))
 (.node 1 (.leaf 16102061034292278103537627410363724401040061089103620482710349587691032613815102388189310208153661030472837103121554510395138721038967155)
 (.leaf 16107061035521999103994469710422155771044517493104171579110373383721029025663102205677710186998711015811234101747331910349039851040999255)))
 (.node 2 (.node 1 (.leaf 16108061028231241103327345810356270761039340929103431310710303237141019044598101116181310050953321000678550100745633510251087061033561714)
 (.leaf 16111051039291786104682182410473457781046442010104047996510387291691032760142102553499210230263781026142841102527448110364929471044297057))
 (.node 1 (.leaf 16119061030468587103422781410401857621042059407103591469010319049071025230263101788593810127968041011932140101634761910217302291026857155)
 (.leaf 16242101049616814103881039910392012131049669312105844681510526722261043635544105002029610506586221052567493104836513110494737941046748130))))))))
 (.node 64 (.node 32 (.node 16 (.node 8 (.node 4 (.node 2 (.node 1 (.leaf 16270051035592763104063872410406056901042247959103837682310353357291027859928102186801010181520861027178698102517013710411641851041856499)
 (.leaf 16275051040374773104748188510482627241046822061104063107410384540621033513241102621287110228181831028771323102378271410390072201047887343))
 (.node 1 (.leaf 16329041037824684104592890010440377231044491520103597774010321426681026894819101880592310114602471011214367103525891210412970071047024867)
 (.leaf 16406101032735076101963353610219030831024962163102506770210270817461023002794104272131710436847771043632328103031313510229808421021426234)))
 (.node 2 (.node 1 (.leaf 16437061037504226104140092210414280151043673008103915988610379675701035853279102536100110238084831026123079102741876410425605141042464393)
 (.leaf 16442051040334411104980741310488401081049032684104194859810388169081034328953102849898410245179841021903826102191000410304001631043271094))
 (.node 1 (.leaf 16445051034991656104179832910459088891046636491104032524710345044821029844732102489743510212452601017328826101658630010221434621030808150)
 (.leaf 16450051033973450104272852610410907071041721862103515454410296255591026458128102474941710217514481027379103102704650310309564351036313121))))
 (.node 4 (.node 2 (.node 1 (.leaf 16458041019797595103326663110335636081028505641101877268910118060000996917663098282357909782888390986840285099825653210148388821023933794)
 (.leaf 16559101034885021101729462210169925171022290536102517664910301753661038830651104914132810475404401037766466103292525210259649511021878626))
 (.node 1 (.leaf 16565101040253807102650849810328713091033011994103142189210306334431041472034105285544810510474091044454382103191403210309878641028723642)
 (.leaf 16575111039622688103408462710347873871038037634104063987310402597571039578402104105916810382146111043508042104441453610386241741033319629)))
 (.node 2 (.node 1 (.leaf 16602061035589662104085931410426243511043757774104026175110373717531029845922102191795710175994331014618555101949784310369954311041175208)
 (.leaf 16607041041430389105118475910496237081049060531104142009110370401281032888461102754757710247989391025219802102892504610386672781048359147))
 (.node 1 (.leaf 16651051026281537102539398810357293881046038267103718511710088582780943226952096113178609492187550982402174099934595710155515731020489283)
 (.leaf 16726011027213194102605895210221041461021489848101959362010042525250996989451102739832310332689461034790700103459999710326875641030079819)))))
 (.node 8 (.node 4 (.node 2 (.node 1 (.leaf 16773041041508345105093724210497770081048930892104145244610360819461032386274102760452310242614921025498624103271565610392087131048809500)
 (.leaf 16775051043669624105336679710527215821052602870104563440210406116591034667776103099892010291465721027329552103180215410379004191047669725))
 (.node 1 (.leaf 16783051034362187104789773910448328931040119166103446433810253827030998796947097572921109755596910992908985101452036410289000041046875294)
 (.leaf 16927071018352117102244337210196160471023169169101768201410245969171023519239101002366310053197331008204077101954260810163072361017418600)))
 (.node 2 (.node 1 (.leaf 16931071035234796103752790910374871641039921236103891451310401085881036426783103116495910274269901026808971102863394010349964331036819925)
 (.leaf 16932061034086879103671203810381417501040700620103716915010393261431033797350102559468810220852091018786710102472603710338113611038189904))
 (.node 1 (.leaf 16934061037725021104230150210437976531044994269104088644010410646391035720821102653363110229564011018953639102685362410349710491042284967)
 (.leaf 16937061040688641104944462310472645451047874596104417766610407336041034132267102642550410214311521016363578101924384810353495601048283151))))
 (.node 4 (.node 2 (.node 1 (.leaf 16938051041765904105068529710485406271049125731104408803310400023811033697673102404095610183529831019843631102344591810421675001050395404)
 (.leaf 16942051039719905104925947810492183821049362678104244424810354898131031592957102699179010238409241020339366102418178510309771721041082654))
 (.node 1 (.leaf 16946051041401569105069226910493591031049291407104141326710381743751032808508102840469010319301441025381119103409720410391905891044345880)
 (.leaf 17090061037286405104099319510412871461043147377104015552810410981111035621231102724296210237698621023025072102846475710375902481043504994)))
 (.node 2 (.node 1 (.leaf 17091061039657670104264208410434105141046138851104205782810407315051036525424102918832510242425631021728419102977975810405600431046554583)
 (.leaf 17093051041503304105037297610482382651049737908104519905710412179911036161181102798719410231851141017717091101993844210354276831048677238))
 (.node 1 (.leaf 17097051042008062105155009510496430851049921245104378775210392616701034083541102953238010252216081026949043102985233610379956581047794212)
 (.leaf 17099051039461302104926556510471798401047589258104075682310359947491031863796102619320710262809731021878033103212218210348681721041702135))))))
 (.node 16 (.node 8 (.node 4 (.node 2 (.node 1 (.leaf 17107051013150894102767100310286629991018708866101467519309940972820972592104095406951509587355890960720618097712443809837957531020066001)
 (.leaf 17187111019681758100550469110074690701009016143100757374110144616241015403442103192863210315263231026818001102348595910151701701008222524))
 (.node 1 (.leaf 17214041027088858104194292710418328021040378461101850166109984468380949033179094740733409848155950992874349100305504310110377751031812891)
 (.leaf 17229071017721871102003913610209232951024054157101845601710198922571020433249101016925710076478091005849004101533318910172435101021082283)))
 (.node 2 (.node 1 (.leaf 17345111024560468100369799010072177391011606344101168800810212055001025547718103685080510353067171030305044102718815210174135231008102999)
 (.leaf 17381071020174426102069033710243900111025223095101963226410240513981020618212101034492110081064601008918486102253266410217572691023478388))
 (.node 1 (.leaf 17382071025119357102396791210271236631030461753102613242010301905081027048232101653998110114649231012572776102660874910259856901027007894)
 (.leaf 17384071030233637103234794710342903301034661009103064865610330605971030242909101927574310157007851018833719102591909710325803251035442443))))
 (.node 4 (.node 2 (.node 1 (.leaf 17385041038010103104111518110421434701042673864103649285110377053531035417926102700625310224114721026607692103521524210426370051044563613)
 (.leaf 17502111029548669102013456910178311911020004830102182572910252226721032377630104112448510362471491033196852103213959310264564721022859207))
 (.node 1 (.leaf 17535071022910896102146580410264552741026611697102249206310257035801024790313101234973810108379901009498554102464585710248443721024933217)
 (.leaf 17537061034323121103849463010398801121038970719103534898310347575771032321025102454522510209429801021822621102987199910368569811041116076)))
 (.node 2 (.node 1 (.leaf 17538051035245681104118460510417090411041891887103994256510339989441030301055102459461510207776651017830675102236507310342517341043093825)
 (.leaf 17551051011715014103035866010245863041009263918101509166109980029660975513729096689049309620020410968477161098648635610011700771017147219))
 (.node 1 (.leaf 17630111032646089102150097610215007521024645322102379540910252160351032387536104300558510428666491037545653103378152110282563321023921728)
 (.leaf 17661051009360647101063498010152026401013060575100975981210077121911008027112099737776809940378411004827707101074491510114335951015626534)))))
 (.node 8 (.node 4 (.node 2 (.node 1 (.leaf 17662071014908165101393454410185122721019085942101826674710157193531016796989100506784410070319741000582486101091933510151075881017863601)
 (.leaf 17665071026824526103056893110329903701032260230102754051910294587191027178511101494712910109497461008566437102242421010266904901033718915))
 (.node 1 (.leaf 17666061032756363103657380310369993611037357489103533904210345842581032327553102522630310208721711020295363102339472710320327271037953200)
 (.leaf 17802051008874095100889142610147457711011208885101303623910070667381008275174099626858809915176221002387667101045133910091014531015760842)))
 (.node 2 (.node 1 (.leaf 17903091035004885102440352510284309781034173504103222351410342134411041664559104833272610357086751033138827103438079110293287661023841763)
 (.leaf 17928071015344564101622390410230706551020076410101775185910153318641015472824100373602510017994111000883790100715023110137686471021614368))
 (.node 1 (.leaf 17930061023770855102832141910287896471026628847102615901110249337401021749826101628447610117350011007878464101896746810219554661028294294)
 (.leaf 18026111039626945102782236310255456121026474948103246632110380624671041637856104913003410474478811046422676104071103210348248681031561188))))
 (.node 4 (.node 2 (.node 1 (.leaf 18031111034092424102772419610274456311029957715103092370310327198131035673896104254009110389560511037538022103511082510323855491028619114)
 (.leaf 18033091040287533103000287810327151841036336754103667295610415818311048356257105100045210408885261037809361103830565610337767691028963450))
 (.node 1 (.leaf 18035091039218306102553570910327043661037835103103880848010412587581046290989104986490310425666431036128067103593658110302011671023699281)
 (.leaf 18037091045581131103528227110384988961044275021104457195610487937031053859630105258479310504119981044892871104296939510386687781033336641)))
 (.node 2 (.node 1 (.leaf 18061071018970736102214249710254160251020474495102229590210185155181020212695100794026710038910931004316200101636559310192164441026271602)
 (.leaf 18115041035309905105190609610440929791043837284102562946309884308670942365820086425207608734598050964114212099393488410274199101048959084))
 (.node 1 (.leaf 18173091043520491103238593610365743771041734759104458355810473545421052457115105273788010466860221040943666104045872810342324601029303034)
 (.leaf 18174091042055103103228348510318777651035475616104062379810435658791050286455105198239810458368601041584309104033906110363807961033696618)))))))
 (.node 32 (.node 16 (.node 8 (.node 4 (.node 2 (.node 1 (.leaf 18204051024401459102920742810279815601025147858102566164810243198981023835165101628504110127312041015529883102403129110252450901029426647)
 (.leaf 18205061033266305104000985910388304341035023653103484658510338639081029113650102379643110188402441019393461102933892610360104011038725844))
 (.node 1 (.leaf 18309111042231016103267003410299344601032601745104079230410456723861048600377104893456010436385291046459291104557255610405109111035528706)
 (.leaf 18315091053205807104172248110468675501052185997105469892710573613361063686518105940579410577838981051877918104763373710434343471039097084)))
 (.node 2 (.node 1 (.leaf 18316091049993277104029444110440167321050326110105097422910528184001059372436105557944910529475261049619051104474261310413237691036794674)
 (.leaf 18432111035757037102739233810250283231025005557102333504810203944571016425155102565896410516738871049335550104019691810333523581029665310))
 (.node 1 (.leaf 18450101044052725102269718410226920931028191106103621064210418586601046733333105596857410581841311050380615104175432110343451311025183520)
 (.leaf 18457091041577029102668217510283955821035158853104129066610462777391049750202105083497410455344201041548298104036458310351866471026522132))))
 (.node 4 (.node 2 (.node 1 (.leaf 18459081044173630103543329810389892811043911411104858598510492515111053148765105090403210430920131041212360103971521010367609231032946712)
 (.leaf 18472010000000000000000000000000000000000000000000000000000000000000000000000000000000000000000000000000000000000000000000000000000000000))
 (.node 1 (.leaf 18575091042053791103490822410356718951041074568104558498210453852241049373101104682705210421067561041750462104027132210381532261033466930)
 (.leaf 18577081042509876103437648910372340951043321212104871079610486222231051380681104699335410412569211037995235103665924710346958331031421197)))
 (.node 2 (.node 1 (.leaf 18598010000000000000000000000000000000000000000000000000000000000000000000000000000000000000000000000000000000000000000000000000000000000)
 (.leaf 18655040948349290086390033200000000000977218794091221155500000000000000000000000000000000000000000000000000000000000009089792180940835118))
 (.node 1 (.leaf 18719101040919236100974288610078250331016902135103209157110426386301050597020105142811810503855881048966707103792283410234658121014895005)
 (.leaf 18727081044270822103521164810395473221044962317105066212610506205011054001104104932702410421233991038715648103665933610352625621031972404)))))
 (.node 8 (.node 4 (.node 2 (.node 1 (.leaf 19011071043248205103942431710417117841045382322104981968610498201091049941467104120000310415193821037556971104069025110386920471033657488)
 (.leaf 19013081044607366103865992910414630851048708743105100883410514831281052258678104491963410420430231038266874103896452210374798281034187668))
 (.node 1 (.leaf 19018081045494155103320763310406552621049264585105235487210532202321058298709104806695310411725701037511386103092473810295139551026429321)
 (.leaf 19019091044153451103284575810387965541046166544104945890210504398201054719650104567922510448878411043556724103606326110331368291028811813)))
 (.node 2 (.node 1 (.leaf 19020101041695347103203859410357453031042483594104472113510461087391050012335104120833110450089801045259914103636669210332071121028031082)
 (.leaf 19135071046393958103596258410413568021050198676105361832210547033401057028998104389859610416910461040840866103732264510358805831034118079))
 (.node 1 (.leaf 19256081044695481103186080710391912541049195663105089896310541171361055829919104508871510425761511040117734103319127510300827521026955033)
 (.leaf 19280041027120230102921584810272744861028171292102618862010247068001024636044102512410310249732181026661935102947765510294755941029537164))))
 (.node 4 (.node 2 (.node 1 (.leaf 19366111042925195102888035810269829641026535663103351260210458449331054105436105274857110488434381044692202104327157110362737501031091420)
 (.leaf 19373091043814855103490336710385039631042933290104836057310522205281053228167104740871710443117371037659611103955719410358521161029074226))
 (.node 1 (.leaf 19376091043598557103595618410419961741047617421105032666410506749231049758293104198749310450789081040144124103794903210348798051031312733)
 (.leaf 19484081046956227103423886110388057221043330720105111709310572411451057914509105156959610468156661038886016103916933410357327051030266365)))
 (.node 2 (.node 1 (.leaf 19486091044455249103514721510414212381048677018105061357110518562391050646473104425942910454824441042248113103888269710346280351032130802)
 (.leaf 19491101042714514102760233610342623911042371881104509931610504144141051203692104358859610490453641044753555103617287410318576671026987850))
 (.node 1 (.leaf 19747091042115498102756580310323198671039307525104643210910534830141052989474104653007210421242551035290933103246610610278330131025838753)
 (.leaf 19750081046725145103697692110424433051049401996105350557310554703811053391425104863936610459619611042103453103865268210346287481033503168))))))
 (.node 16 (.node 8 (.node 4 (.node 2 (.node 1 (.leaf 19839101020154946099805313709901174820987811787098976788409910078561011175248103565221310366990311031825300100962103410084854421001433315)
 (.leaf 19848101038609252102123050110146996511007708103100097738810010856331031276672105049113410548920941050110186103730863210290358981025710676))
 (.node 1 (.leaf 19850111044603804102027567510099639501002710295100595978010151449841042923465105717621810581169641059564898104708582010295392421025789612)
 (.leaf 19862101037415529102210179310177747901016500818101408854710301243451047591919105049220510477263201041614408103626523010300223921024552351)))
 (.node 2 (.node 1 (.leaf 19870091046880040103375581210391909441045142848105171114310561084951055870818105007801310501387891045049671103647490210324809631032027298)
 (.leaf 20116111039260381101511408810038057100966778451100489215910072264911042475059105156573610525936301050405647104035771210281805441022815333))
 (.node 1 (.leaf 20117111044097740102536354010208213801016628507101350664510153629581047996873105642097210574956251056971826104496241110337994531029615631)
 (.leaf 20128101040721095102265374410190983101019713058102650703910414751581046597373105107994910507458941045744895104028233910363278321025961628))))
 (.node 4 (.node 2 (.node 1 (.leaf 20130101045058882102719826610246979961025740492102766494710422407481051436309105724562410572050791050933661104494134410379418891030148578)
 (.leaf 20137101049011675102820708910316985851038670230104523056110548216751059362768105698391910579228041050853738104153894410331681531030497469))
 (.node 1 (.leaf 20142101040269836100227091409902289061009787983101764419110234409661054538311104881282610573787951044289206101361547610160188361015727243)
 (.leaf 20371101033157396100972218110020576510995985982098996369609863523851019084804104871394710507942581043836321102459166410181252931016484186)))
 (.node 2 (.node 1 (.leaf 20390101048504976102866437010271689831030266513103850400910471494041054990049106047574010591193311051493329104555431110389435491030246719)
 (.leaf 20394101049500628103451564510331074731034866205104031225710494316661057465013105964226910603445641053047879104546542010401689261034857946))
 (.node 1 (.leaf 20397091041781271102907254710296033741026667209104159488610507461271052093145104845166110492063221040436795103568544010268331531025325109)
 (.leaf 20398091043319073102693784610313397551024708287104470770610528832001054856976104917209310508977871040816085103772705610277842641024489015)))))
 (.node 8 (.node 4 (.node 2 (.node 1 (.leaf 20416111028438585102002603010163678971013782935100947364910081981881024714297104003527210296587411041101457103812023510243059511020161935)
 (.leaf 20424121029912607101761062710140059691013302067100737089210316108361039816732102716970110320885371031658316104273933010313406611021816766))
 (.node 1 (.leaf 20541101041413213102600823210247359501022330462102536874310380775101049608103105099041310548440661046900661103902175210281395961024490600)
 (.leaf 20661121037884394102619753710212902851018732692101527184010143195921028352843103377314510494656181052382870104674973910402686251029980035)))
 (.node 2 (.node 1 (.leaf 20768101041743543102298077010177223301015858833101148499910079097141034201242105770025710586603101049560648103528466310290861361026593190)
 (.leaf 20883101054882872101851399910100641991008587207100894056110063223581054630493107540060710683746301061744654104102413010289237941024373481))
 (.node 1 (.leaf 20894101038987659102240815010168892531015551322101235019610107734771029743820105153643710539882171050528436103607227110299897391025805580)
 (.leaf 20902121037209129102812592410237957281021304541101814820710288409361035530940103754572610454629051049246549104486852810396560091032395456))))
 (.node 4 (.node 2 (.node 1 (.leaf 20919010000000000000000000000000000000000000000000000000000000000000000000000000000000000000000000000000000000000000000000000000000000000)
 (.leaf 21010111041295196102736529910229900801021046887102401035610406168421044861453104753156310508203891050027173104588343610394876481031401521))
 (.node 1 (.leaf 21041061035846380103701339010344496651026569610102977493710434791751033551755102630636010262385271031618153103312358410453580011042577618)
 (.leaf 21101111009109540000000000000000000000000000000000000000000000000001022419109102491257610166475661017936073101420090009743203600944456717)))
 (.node 2 (.node 1 (.leaf 21107101040863352100482641309904187161000380753101108103010208836871036852312105560663810562993211051388523104046027810278678601016199585)
 (.leaf 21127121045941270102880488310237484201019680378101921407110383649721042783526104359266910499116561057577689106166910610487147891034890575))
 (.node 1 (.leaf 21128121048660678103168664210262921761020589094103014996010447493701047608894104437699610515819881059486665106226077410508476431037446103)
 (.leaf 21154121027351323101977265010154380051012577982101666705910349115241030926013101919759810236923591033750269103517649710332371051025678861)))))))))
 (.node 128 (.node 64 (.node 32 (.node 16 (.node 8 (.node 4 (.node 2 (.node 1 (.leaf 21223101042161594098583529909274890590000000000093341803509472356041038353554106223390110576837731047833299103771549310206745361010584672)
 (.leaf 21244121037226214102274619910131087721005350587100303130710269847191034167571103534085610406164441049225782105290871310407790071028641428))
 (.node 1 (.leaf 21337101046538658101428972209903690580991436726100027097509998539541048553589106576644210611885371050190330104310336510294731001024621209)
 (.leaf 21341111038841025102378861610154432931010737880100998226010188676691024603739104995217010535663271049172660104389372910323519961027137085)))
 (.node 2 (.node 1 (.leaf 21347111039043047101922132510142358611011437007100826407110219212071037123529104680929910534705911051278994104314272210302342281023415621)
 (.leaf 21439101056105752102842962010192113431012851368101539788810262083051062063277107379339310695521951058452592105379011410416212771035578460))
 (.node 1 (.leaf 21447111040015901102135428010154626241010798160101196796210320251341027714970104444624310502476871050340050105256280310373748981026064608)
 (.leaf 21551101041963847102754314010207686891018105556101563757710349739371046057116105009536310563477731051099244104127548310360316551032881559))))
 (.node 4 (.node 2 (.node 1 (.leaf 21552111044349141103266192210275709721025278682102144796010325882961047555431105150423210582337721054945140104453780110399457131035994481)
 (.leaf 21655121029337474101664317410056135180999308405101567382210236253901029210827103186251010389747691042331011103384076710311575261024182610))
 (.node 1 (.leaf 21740101040555018101291304409918180960980152950098932625409954045001040083135106027345110533265551040827683103893396310285362821022769687)
 (.leaf 21754011050490401104386568710357637681031894782102784631510266946291026783011101971404710170235911042719554106588774010676886581059748301)))
 (.node 2 (.node 1 (.leaf 21757121048210338103916728510324635161032475437103209500310406658341044124856105380869710537490241054170369105703673710519958561046472337)
 (.leaf 21765111042675040102398394810186718661016557971101248082410098481341030675810104628514310542595121059120978105303342910360561641027720891))
 (.node 1 (.leaf 21831111032915361099656138309640132370913475511096980138509913483241032952818105118234210465303141034137966103753680010233252951007716945)
 (.leaf 21842121020710534100787120010008830031004359717101106322310165038961015026105101661529010237501241035152913103234952310216526441013991710)))))
 (.node 8 (.node 4 (.node 2 (.node 1 (.leaf 21849011048901460104320818010361227471034761263103341250710406762711044879443105198338710514774791053388555105821377410540795251050101011)
 (.leaf 21940101044803036099754818809659102280957498523097194578009902503751036975082106611297210597083101045137429104369126410330568151015039259))
 (.node 1 (.leaf 21955011051588423104487037010349068811033073096103428254110413156741043979743104312110110446901371051095773106327524610661637781059680635)
 (.leaf 22034111041252727102778963910235442061020522638101682299910234436791045247199105099444710533944901049031984104564433710348689231031946799)))
 (.node 2 (.node 1 (.leaf 22041111048522153103415976610276889501026599902102849233010406465761050915269105744238010592604001058590437104939009010428620651039097024)
 (.leaf 22043111047883892103004817210254510501026722467103323007110459003041052198646105450287110589257091056058993105060321610434377621036319073))
 (.node 1 (.leaf 22048011050497563104593516210401050341034437562102700930710303535001040639619105358150810586271921057348854105899630910551030721055276805)
 (.leaf 22127091061309571102847795110159039131011269700101811734810383586411071217853108109327510749525741058818422105100831610409376951034925196))))
 (.node 4 (.node 2 (.node 1 (.leaf 22211101051427382103054753410250241161019859373101537464910144461011056509247106857830610671187591052050959104731471910397759861034223228)
 (.leaf 22290101054564495103263766810271450841025145742102190068110248329401059984813107250214810685534361055070243105043978310427987041036603948))
 (.node 1 (.leaf 22370101048740290102777785610226544351013821498100485224910025526921034699137106665450710658691611049237303104578608010378188191032504730)
 (.leaf 22374121025278902101750044110080358400984231675100001770710147454151009836004100712502309991055781003522408104193145110445078111025134501)))
 (.node 2 (.node 1 (.leaf 22469111049926135103445181010297351041027200993102460806510337188451048718419105535951010607826371061824774105869850510475691471040245290)
 (.leaf 22470121048049828103563015010323993541032507586103904790610465351581049862678105129885910530854411054652704105620355710493631161042418793))
 (.node 1 (.leaf 22513111021379033100823454510032413031000852395099708186609998974980995044843102356653710404997491033555468102345710510154685581011678824)
 (.leaf 22549101044474422102052228510072106670999436784100228058010199820131051857605106131247510576120181045154087104397846710393910791029017343))))))
 (.node 16 (.node 8 (.node 4 (.node 2 (.node 1 (.leaf 22639121034346723101472216109967040421007811887098043839410067282731031894424104094370010357670961031268744104601154710503522681033393770)
 (.leaf 22650121045242660103653167610320106341026585074102180898210264827041036637768104714222910550010521055922256105659617910483587421042179328))
 (.node 1 (.leaf 22754121043899956103292043510278303331025750283102518367010334757601042809728105004293610552775171050332148105286590410455491461036814320)
 (.leaf 22769121052872087104246093110364943911033195102103202345410499826591056668536105665270610580836031060735832106238223610559957381049704643)))
 (.node 2 (.node 1 (.leaf 22783121033200172102553695110205516111018721705101828715610244005071030432730103607957110409795711040733638104075936410377197361032690588)
 (.leaf 22829101001461872099154720309887256220994022297099618490009940931780988869327100967395510174456451006172548099995926109971494440993573394))
 (.node 1 (.leaf 22871111040727606102738460510234498091022387117103349686410429716451044617887104663586510480577961046279300104418542910398056071032975181)
 (.leaf 22873121037976674103146945510261650321024938373102639076210361222531040969194104310306210443747471043346982104263315610389847401034616399))))
 (.node 4 (.node 2 (.node 1 (.leaf 22933121032717411102012319210021708071002832614100806508410161747251025369301103766342910358661681030000019104365792010478971581030687814)
 (.leaf 22962011052613144104862403810413563671040376140104067121110497469721052531993105461416810548754371055698695105841121910607394391056828471))
 (.node 1 (.leaf 22964011046933209104235877610355030791033536451103240480910382774761044856492104510928910484106931051432778105705253310546853261050007221)
 (.leaf 22970111041597641102669984110267004351032497747104430013010461265411047625405104561934610436760051044538456104419457910408366371032762949)))
 (.node 2 (.node 1 (.leaf 23022011032710931103174347010266668741024897422102120072410190749631021348284103235242910383063381040259040104026362510368673721034320630)
 (.leaf 23025101022260776100035208209955996080992875295098887435809860794200984961882103221166510444168911029453769101045966910071587011004234056))
 (.node 1 (.leaf 23038041018963318102640418310158351441019037753101891414210125532410982641197091967457209790428630990787135100902294410291423191035487955)
 (.leaf 23131011020153497101826346510138335021005291492099177690009918509241001419871100926360310009083240990972941101557916410413021701033172780)))))
 (.node 8 (.node 4 (.node 2 (.node 1 (.leaf 23134121048680810104029451410338457911031806437102894428810346878241042236942104906501310529897341058209707105883092910552490181045133759)
 (.leaf 23156121042475111103614596410348383051038391395104364679110444027011042684432104439217310441784971043708514104556427410453485401040806492))
 (.node 1 (.leaf 23157111041219608102483251010241871771027898312103903141110442455541045916195104669348510475010651045362905104470411210411060401032086331)
 (.leaf 23213011021903335101425295610078588230982862241098602860110161024901023571681101291139210125273761011225240103276439710402869691022787460)))
 (.node 2 (.node 1 (.leaf 23217021035646219104272951810356443461032705654102750114810247256720991717041100051767310108396471019427751103434663710493875251049900585)
 (.leaf 23287111041802138102431184910193882251019575863102274613610354464381045364112105443154310540788011048860383104264591910338370261027942125))
 (.node 1 (.leaf 23300041038477759105024231110410022781039009619103201171810167668091000494374099748906409952712451008666957101174261710449477871056328589)
 (.leaf 23383101009205466100099182810001533160993760978099512048109861100250988303140101757692510287891851015246100100735787009975727930995359639))))
 (.node 4 (.node 2 (.node 1 (.leaf 23395021035881882104118020110324811391028853591103233756210324191271027215540102578818310238249151027827972103850494110480681761045326589)
 (.leaf 23396021041206156105021670610355157621035659183103334395610271629051014250905101696559510156663191026004334104052192310530222971056232650))
 (.node 1 (.leaf 23486121054056448104713637610462742271049390580105449132310581907941055594977105444654610563833281057526233105808240410555443921050839887)
 (.leaf 23514111044085292103347741110287797531027027793102754150210358054191042167130105176184610544302801053347742105097035310419653571036569268)))
 (.node 2 (.node 1 (.leaf 23548011036942921103503625010313767361028311773102673044010326008491028188070102845425010311355441036101657104547061010489194511044088344)
 (.leaf 23595111045044129103389338610295045791028282047102803063010357084261042580821105235490310555233881054803484105228750710430014041037292552))
 (.node 1 (.leaf 23629011044094530104135772910378468451036590856103967174510424102441040289798103917103110393250991042760538104975635510539232781051956758)
 (.leaf 23630021050549599105166876210440527371042858373104022096810415242401043468820104325616810456843731049996842105121401510589123491064635622)))))))
 (.node 32 (.node 16 (.node 8 (.node 4 (.node 2 (.node 1 (.leaf 23644061053447408104982770210509305021053907300105652006510575811171051064685104819465010492964021053579039105752433210574287861053683227)
 (.leaf 23646071024416632101770694810151036261015230574102611927510329350281026578799102211023110173246291017750015102603823910320238781025099490))
 (.node 1 (.leaf 23647111045981254102787258510296070631035220118104546859110511813861052806469105334938710504324961046337652104760681510448438761036056984)
 (.leaf 23778021051650426105666769310490997271047351044104312411410438015891042313113104130731310416437991045656896105005899410600979761066450865)))
 (.node 2 (.node 1 (.leaf 23865011058637075105486735710507614021053099889105602047810589220621057463200105793491110592535601061183950106473537310629118501059936212)
 (.leaf 24068061051214103105666095410503460381050362719105071060110516514141050414626104927932710499642901049647213105074202410512999581053490071))
 (.node 1 (.leaf 24275051059475693106244850910591034521059770391106029351310586868491057412253105590626210576943861057941609105979165710614619851062668274)
 (.leaf 24536061049987448104787352410598937831061947157105937020010517667871045269054104167837410364072781035065674103258304510364490351037916652))))
 (.node 4 (.node 2 (.node 1 (.leaf 25042061050398271105767392710549055601056399313105249964410514999061046745389104457409210413782801040248531104048280810470971661055100454)
 (.leaf 25277061028807083100449024910240256201040939813104780836810364376531023538569101891908110156398961011068693100799874010038542471000874804))
 (.node 1 (.leaf 25392051048991017105797104110564764211057608435105116364710487363541042103136103911133810340409281032463975103227010210427231171051485941)
 (.leaf 25646061050126848105777615610564753631058341629105680510210511242491042938800103666044210296493281023441305103270088910494866491054301303)))
 (.node 2 (.node 1 (.leaf 25647051051126120106185380010599478421060429818105463873510483196831042776572103505755810226589931003939563102176596610463162441057435524)
 (.leaf 25729051045786068105689611210561124881053213379104947470710429234271035355380102845979610115397311008749177102485785210407478081052487775))
 (.node 1 (.leaf 25810051049045798105779185410586071211057406158105055332110462468321043132643103700598310276055561025037967103059898910448178641052396395)
 (.leaf 26296061044482045104812583010496994201051281520104907639910455120011041091500103755358510347906841034687396104159449710436970831045580033)))))
 (.node 8 (.node 4 (.node 2 (.node 1 (.leaf 27067041033015754104451529510449227891044124737103081374810250747891021592138101808632410167509201017191640101645799710240498431029558769)
 (.leaf 27088051034447588104400227710408682931041928195103534744010284405551024274034102065491510168126191012880149101893917710368031121042809663))
 (.node 1 (.leaf 27170041034397738104686373610397987711037365799102568198410209115921016814035101377244110096422051006148630101412022610406981231049128461)
 (.leaf 27692041038688468105079354310534317281047176602103371136210261677691021626973101989900110154456311011292570101105246910229032641044168703)))
 (.node 2 (.node 1 (.leaf 27775041022946531103468306310403163081028100871101315384410078761321003468277100030869709966747420992402281099193840910084677921029220083)
 (.leaf 27885061032305658104029501110432382341043075378103499144610325912361025095805102039683510149223561007697048100788809710150925191031904305))
 (.node 1 (.leaf 28072041042010350105355440810508864601048847450104054052810364073151033291256102876387210256166611027116308102990175510356109631049175981)
 (.leaf 28249041040254455104872787010458561451044845568104003787210371998031035595859103145082610285293731031946878103390221410356132861044680037))))
 (.node 4 (.node 2 (.node 1 (.leaf 28252051037491984104536558710438368931043308543103986634110341881921033088190102895282210259658491029738917103093404310354808741040807174)
 (.leaf 28341041037919793104915849210480171161044106548103552093510339816471032868360102726947710228813631026293005102641507910314127861041460913))
 (.node 1 (.leaf 28342041041165732105019456910490347261046736999104091351210376288041034515622103271752210286308321033254052103436714210369346111044559527)
 (.leaf 28422041038980016104483097910442811471043853442103838804910354960361035313244103208250510302697131035838854103692604610367504221040374612)))
 (.node 2 (.node 1 (.leaf 28514081015041367101012018510152464261019896946101996822810191901381017132507101570302410130779741010086476100832509110065996361008362829)
 (.leaf 28632061025814465103629509910378395181032847664102814270310278088121020268016102081364610151196061010080039100299531610089046151016003457))
 (.node 1 (.leaf 28964041021669676103175332910313617331023942709101637371110098266951006067474100113472309986756461004533703101807519010258869091032160796)
 (.leaf 29095041017603462102497312010298090981024967199101325319010078598981003788451100098261109994700801007919835100906649110163508111025686201))))))
 (.node 16 (.node 8 (.node 4 (.node 2 (.node 1 (.leaf 29149051031850978103478235710410715631041020380103327489410294014241025420998102233522310204128511022151369102351128610268804991032660045)
 (.leaf 29206041029729334103573089910352597781035144052102883856310219809281019596364101383707610217346881023701900103180812610358515301029925695))
 (.node 1 (.leaf 29556110977785974095969490809756920900961932505096499947309664900470974472431098342074109913553500991428263097837288109680625940944393474)
 (.leaf 29565051005234908101665379510108859461014036623100948839109999453360994199077099740183909843497350982181168098240569510043028681007652114)))
 (.node 2 (.node 1 (.leaf 29922121024784496101506437210076655951006223667100540501010090607631016515553102852831110342974271034019554103410032110282421491022329368)
 (.leaf 29931111049169001101707079110181379801024943263103878863010568450191059015969105939036710536211221053462220104952648610398335801031047563))
 (.node 1 (.leaf 29949111023797020100914956410097305171007160387101236012510188834631026746759103116471710327632081031915763102795270410199578571015923398)
 (.leaf 29977121022676414101191426110072115251004519049100071732910008242301008454177102611201810321141851033932892103240959710251561461018252970))))
 (.node 4 (.node 2 (.node 1 (.leaf 30042121038100179103294125510289730221028232379102945047110338883931038568213104099021910430456191043891699104339588410409153771037237540)
 (.leaf 30144011029504969102841322310247005061024697307102402620810253983041028737287103232485710325356701033143015103341868310318853591030465541))
 (.node 1 (.leaf 30220111050152459104381945610397834401040402118104369300210500240721051594958105521218810561183261055209358105379833710500918201048678452)
 (.leaf 30241121051321777104787222910427872551043793005104797367810511841231052351790105453356210561765531055288256105536346510522180921050380399)))
 (.node 2 (.node 1 (.leaf 30242121043243563104034459910357728941035914059103764452610415857721042372246104686086010487202781048251554104835251610446782941042665534)
 (.leaf 30243121027330125102482867010212213151021718977102213643710249203821026566824103150425310321362921031979021103238174310286819721026208014))
 (.node 1 (.leaf 30255121043020220104015104110343250011033052949103343138910379471611045648457104895772910498626331049042782104634690710430919591041234782)
 (.leaf 30263121046090894104057630210351121831035871070103963519610446701381046786098105068082010519977401051421817105032184410465674521044359987)))))
 (.node 8 (.node 4 (.node 2 (.node 1 (.leaf 30306021057041772105850874410516868091056415591105677221710562341361054060283105162509310539353921056493133106068026210590327521059809747)
 (.leaf 30307111041001867103389456610281633621033851418103748616910400260621041613483104241775610453213881046710595104880168810405351671036429649))
 (.node 1 (.leaf 30325041054260308105329793710482698141054453577105343489110538967821053432223105238710110556590221057535538105883421810528434301054485527)
 (.leaf 30353111045192932104451294010392355911042246601104265829310469116721045385920104576712710479925071049066695104967223610447586741042044098)))
 (.node 2 (.node 1 (.leaf 31818021032626112103280929810311233491031660245103166169610336617711032153363103239815510325256871032786695103363799710332943351033325218)
 (.leaf 32106111048164362103840054110354953331035526664103742439210582908481061942623104696059510435181531044820021104857866910432756581041094877))
 (.node 1 (.leaf 32310111040361925103192845810280533591027266690102969870510507063341047147439104316589110424824221040851488104053762710370759301034306827)
 (.leaf 32598091038745808103645267510337288141033740041103654487210437954891042085710104072044810390769061037730372103842645710383667661038241677))))
 (.node 4 (.node 2 (.node 1 (.leaf 32866071042239366101992500310189346981020430197103577363710593415191055519355104213882410375857601037214147103856721910329750201030080043)
 (.leaf 32869111036324548102773933810249343891024561422103369070210507396281041540816103599440510343772471035129763103688245410335456741031091667))
 (.node 1 (.leaf 32965111037533680103598530310339778791034253619103726807810410460161038545612103860826210383142031037904693103872701410373997641037515095)
 (.leaf 34002061007114483101293477910141559181015866150101319283610087449601000243196099367506809865282340986182382099513331910023912951008919237)))
 (.node 2 (.node 1 (.leaf 34030061029484776103243358710309603541037217586103716138910307808841026337559102471558210204139471018125041102185085110262017921031282180)
 (.leaf 34304091042852185103035934810275511221027320970104204674210557941651053345537104716509210440955731041474769103948197410337214721031991586))
 (.node 1 (.leaf 34407111045367786103901566510354314401035133602103431607410512898121057064198104815651810446525711046133444104781856110441787881041395179)
 (.leaf 34532121044424562103622875010357684251039023458104636515510550429931053901545104282619410363548611037118891104574670210447312361039758031))))))))
 (.node 64 (.node 32 (.node 16 (.node 8 (.node 4 (.node 2 (.node 1 (.leaf 34540121045710832104362755610412629511041135085104282884410506714171045209774104696805910474714771047655635104818655410463721601045045060)
 (.leaf 34767071054653828105117394410487458911049428828105827009110674637601055790779105147652910495989031049362803105204483510537827591052681088))
 (.node 1 (.leaf 34771061040951303104262963010439049041048100790104482192810416043061039652920103834169910355039141033423918103332988910356320361041849720)
 (.leaf 34842071056521531105731901910549376121054962608105742667210657231751058452762105409717110512136601050205852105156301610537413341056812377)))
 (.node 2 (.node 1 (.leaf 34893071051475955104818013510483932211049964292105657491710610797011058353993104968678210449483161045743018104734081010489120111048892539)
 (.leaf 34897051002108183100912993710096791721010205627100695789610011089820991798594098816323509735090720986280100099290326810013098311007881221))
 (.node 1 (.leaf 34902061042593420104383046310428086801043745464104283730110426142531041989345104214481010418868571041469217104211315810423413001043340191)
 (.leaf 34906071053070307105456378610520356731052266795105556048210630749971053470667105047900110485151351046877845104868328910506856721053640442))))
 (.node 4 (.node 2 (.node 1 (.leaf 34976111044856879103829591410350289851037757017104693904010543119851049180177104645981510444536861043903387104521058510441602071041501461)
 (.leaf 34979111043629698104282336710410950251041292348104060170810443726911046639281104624199410455662461044257617104392880910433579851043379307))
 (.node 1 (.leaf 35052061028344333103064797310296037441031305537103027652610293270311027402023102693164810254587711025022153102649048310278623661029803745)
 (.leaf 35070081038493676102048197310252432621042288712105209572810463388611041145766104022404710347125741032064700102958429210296519271024296751)))
 (.node 2 (.node 1 (.leaf 35115071023757346100808834910094901401033303478103875274010299653491023997092102019330710165374101012603487101349014510119538291008663773)
 (.leaf 35127081045062441104036194810367851951038681517105152710610570153501048513875104550119610425793211040604540104103027410420303161042172682))
 (.node 1 (.leaf 35128081042514164103603492510335321561036338613104944182510537750371046224707104353524410410934561038057746103765854510386962691038439672)
 (.leaf 35186051064575487107086773010708416661068766664106597988710635556501058947576105111295810443168761045726612105513670710678325681071045980)))))
 (.node 8 (.node 4 (.node 2 (.node 1 (.leaf 35271091046660791104754611310461661501047434973104643954710469785911046842756104722965610467149431045660807104600047010458776731047037816)
 (.leaf 35277111061998405105355605410522346391057318697106325402210700252861067496365106296408710604761131063713190106617249210595729481054021814))
 (.node 1 (.leaf 35382051057449415106514307310654986901063192562105923348110550960591048759668103835264310325961661034627139104325978810602773581065387831)
 (.leaf 35389071027562569101464569310178822331027130109104203288610481812111027937190100364974209742600710986433768100120106010078303061010928269)))
 (.node 2 (.node 1 (.leaf 35587101037740198102047210110171953141026965083102844052310262120591036538402105191755510513745241040632044103623905810298150051024809346)
 (.leaf 35627051050354122105098491410510217321053302231105654118910489018101040234365103534454110327270071042639343105295813210574348691056933890))
 (.node 1 (.leaf 35661101026581977100844178510062813261017440868101507002110117265421022184523104156653410423316431027696190102477624510184500201013497455)
 (.leaf 35676081041765309104043414410408823141043001616104488940210452082421043937790104312964010416517991039980661103888547410377180971038763729))))
 (.node 4 (.node 2 (.node 1 (.leaf 35679051048627705105767942010549581581050060789104894173110440267691036761545103089405910256591811024447791104394630310517896011057605283)
 (.leaf 35682061043747386105056034510517838091049890287105098650310488141841038387945101863316010090591691012777589102628291410415919711049189994))
 (.node 1 (.leaf 35756051048051027104978660610514372311058267733105777097210468216011043055123103921098710349437751033307093103530398310417266731048693583)
 (.leaf 35803101033252752101355089510116712561025647241102354777810120558701020797356104925248410494189491034520961103040925610242611201018891970)))
 (.node 2 (.node 1 (.leaf 35822061048147649104862201410494280931056553535105801414510505978721045735494104280839310400398081036868582103834120310406729181044998709)
 (.leaf 35823071049051147104972757010497933401054314694105478734910520237631049098957104594371310431418261041613742104292220610440111561048611777))
 (.node 1 (.leaf 35863101034525620101516385010135328501026445116102082659410134348861025588508105005340510512802951035992590103033021510256320581020718673)
 (.leaf 35889061030314676103380338010387716971041093175104001125310336604051019969960099911810909994393290992376425101346629910233666591033034805))))))
 (.node 16 (.node 8 (.node 4 (.node 2 (.node 1 (.leaf 35948041026343796104268127710405172071028552275101783060810056792370966929574000000000000000000000876819625097844566610172319261038789226)
 (.leaf 35950061021915221103500053410325677671025496050102395683210220325001015859181100130292909902393090996939436099979104210116757491025950673))
 (.node 1 (.leaf 35959071026255837100713892710016645361026117671104590265610378961171030667180101107558409965695971005529136101564198210162423631012493541)
 (.leaf 35986101037581911101648599910121911121014820636104389753110418694681033317177104290530210515971221043951519103171261710262722011020265158)))
 (.node 2 (.node 1 (.leaf 35991051041341709105152208110529514991052974531104439256510388057851029683820101383325610005882651009984809101289969010298885281041908692)
 (.leaf 35994081040969421103520625710404422861046044163104882857610499318911046290569104147719610349075391029243276102715925710282478791032758266))
 (.node 1 (.leaf 36017051040482410104929850810483680681046793221104182331210348297571023769366101195131710080914871016533941102975182910430948051049591370)
 (.leaf 36019051032174295104113562710419576331041054011103584577810290896671012165276097844013209353145580980231535101251327110300093441040272991))))
 (.node 4 (.node 2 (.node 1 (.leaf 36050091030300396100345092710007973420999222006100176577009983228291021604619104959983710490163311026322135101859330910121407621007801023)
 (.leaf 36068061023652679103672569510346468881027577518102677158310238492461010900345098234809209280792190966371201098774228010140842901028402880))
 (.node 1 (.leaf 36077051024863732103779141710388970261034445921102831015810149944840992695882095386674409263812290958191389099063797810112528821029245540)
 (.leaf 36079041025580359103328817610405706701042507024102391947810069094200976472021093269145400000000000908389954096515232610110507041029526031)))
 (.node 2 (.node 1 (.leaf 36113061035321118103779386310409111841042845314103913797610393303071032872934103058706310250415611027836104102777449410334591491034903800)
 (.leaf 36128051042440789105078968110520897521050211454104474705710367733401023429920101112372810051383281011563070102683513610436793761052170264))
 (.node 1 (.leaf 36133061046143494104177114510479130101057876044106163189410468596431029390569102396534710193273331017375815102589162610445300351048866746)
 (.leaf 36139051031455629102924356010372301511048808174104839670310298379460982475387088197762609480997250972492762098175764609935263441013086689)))))
 (.node 8 (.node 4 (.node 2 (.node 1 (.leaf 36153101040389767101304956410143498311033042470103231707410372861401044785568105357430410517840491042994727103597120310277214891017408444)
 (.leaf 36161051045504923105740994210574891571056900241104837428710413767351029752861101035664510000047111003841222100994559610392864991050208684))
 (.node 1 (.leaf 36173051026624530104074428410369729551031533258102719686010215077641005954188098792330009791654800982021006100326831810205174141037711659)
 (.leaf 36176041025910578104082867210376006521030444029102025975210081386530984040176094192576709199098340944151162099131006410209786751040061498)))
 (.node 2 (.node 1 (.leaf 36205101043738034102064063410261345411037010377103674077010407961231048293625105697438010569276361047276785104104399110342122881025365359)
 (.leaf 36218071041890708101856161010164264801017929752104456231610657451171048981195103269601210265095681024386414102468514210241487801021246431))
 (.node 1 (.leaf 36234051044548808105028749210518507201051981263104921601610432657001031390752102373307610246760071025803815103880500210462809351051588699)
 (.leaf 36258111017915545100094473909987876051006468137100458585009966958981007446956102519346010343571471029924572101867819310105830751005427800))))
 (.node 4 (.node 2 (.node 1 (.leaf 36261101051188563103346828410375039561047892863104790595810419718361044465896106191744210658475881059335974104131633510443057691038243605)
 (.leaf 36263051036961802104841334410514459181050979832104195065610266565761000142017097475056009690694680970147370096643581910143964521035591397))
 (.node 1 (.leaf 36284041011763559102883476810262253921016620864100956140809883918140931302787000000000000000000000000000000000000000009936521351019579158)
 (.leaf 36298040992366252098734051110076184411017245882096637063900000000000000000000000000000000000000000000000000000000000000000000000000000000)))
 (.node 2 (.node 1 (.leaf 36326061041221664104869218210493123481051466397104647395010430899441037177152102991137010250808471024121138102224577710303261231039644864)
 (.leaf 36342041017391233103315227610325254711024645736101593324209932515700931476739000000000000000000000914644045095413063410004176921025491485))
 (.node 1 (.leaf 36349041037929980105072351210494690701044300507103547227410257115891015610452100770724410077286271009922264101724031810344102731048214512)
 (.leaf 36372101049462600103173235610395380541044802566104030568510374522981045808917106190699010631635811057011682104185574910376907121033824656)))))))
 (.node 32 (.node 16 (.node 8 (.node 4 (.node 2 (.node 1 (.leaf 36374051041424882105281764810538888931056084929104689632110343747771016870891096211048009862575420997509317099853469010198342551037222463)
 (.leaf 36392041041990428105665777210543666451045675618103907526810266364950987328453091078188809318837970944343607100917414210386829361054163387))
 (.node 1 (.leaf 36442101048101215103454542410396931291041430390104039887610389193341045446530106016068110595415371053664196104194165710392500071037547730)
 (.leaf 36449061024257706101584452810188682311035060313103886861810330058271022995747101213607910054517461006322756101028533410141437211014462323)))
 (.node 2 (.node 1 (.leaf 36454051048105087105799413410573233931057292742105079447110449486501040577263103518203610310319551026177028102786975610356395771051687350)
 (.leaf 36457051038313438104700528110444713901045800314104070360910344960081032222161102807589210249990831031245349103245187910336478461041030396))
 (.node 1 (.leaf 36498061044524167105594934310553807111055100433104911777610494538591036069346101479363910069437041012918471101724586310248769731043757830)
 (.leaf 36505071043972306104732482510459420931050111104104526845010449591311044495608103283790210295730491035316365103880602110491218111048870922))))
 (.node 4 (.node 2 (.node 1 (.leaf 36509041049960185106030364010581487131057416438104994484110450338321041598598103587447910323222681033674012103756683310464305991057051963)
 (.leaf 36511051045437145105379084710537265571054776911104812266210433592511040000638103350556910319745351031086452103714872010409312121046467460))
 (.node 1 (.leaf 36544121013170554100732044210059817301007162587100212500809957095590981602445100524572410252960631023567431102108466610156842971010558220)
 (.leaf 36546101044644089102805255110275045841032730451103462819610403565861048407042105834213110577392821047564921104213679910358121931032024449)))
 (.node 2 (.node 1 (.leaf 36562051052101657106220350010614983831061073685105425301210487101621043809831103975773810367292141033725698103821806210450222761056160271)
 (.leaf 36576051028934316103192135010400771371047603862103949022510225665220984207229000000000000000000000000000000000000000010147500371023796895))
 (.node 1 (.leaf 36613081053321297105297686710526898981054811447105443401310544042501053478913105555878910526535291052661362105255924610515761611052051086)
 (.leaf 36631041030847582104516055410429701021033093535102595060010116979610985021963096492223709595999120972101966100917881010155474941044378808)))))
 (.node 8 (.node 4 (.node 2 (.node 1 (.leaf 36686071043680580104597953410467983531048635282104662594310480614381043736111103715309110340698521036054070103719724210448202091046838893)
 (.leaf 36691051057513757106697802210657811071065849823105825450310543993331049379985104437427910459157831040677153104882424410528745941059463322))
 (.node 1 (.leaf 36692051043982871105389995510530338121053576890104559857010409241431036548222103244648010321819291027171033103308919110384786701044301547)
 (.leaf 36721041016839769102984021910289546051025141673099947105108683504300000000000100090471610162419520997232393100808050810145533571021552737)))
 (.node 2 (.node 1 (.leaf 36728071010689790101650233310175230761011739981100771833710118973701013710649099905800110046386920997750280101542167410091735101009411723)
 (.leaf 36730051048584187105822229410563283131058021842105341733410466040511041561213103352131110258034511020688893102032614510354238591052496685))
 (.node 1 (.leaf 36783071030826987103026982210333301601034688880103094117210337938471032206427102236578910199112661019110698103343468610321470281033146574)
 (.leaf 36787051046103756105517864010555140031057656790105110647510437014831037961734103524788010318742671027314735102779357210328200781044360787))))
 (.node 4 (.node 2 (.node 1 (.leaf 36789051042813571105193843810532635031053091034104513275910402161011033688597103190923910306556491025633812103021615110338472781041795818)
 (.leaf 36841061044048547105001578210507477521051125184104985272910450326221040982621103522409610301261041025826639102790563210392364291049726001))
 (.node 1 (.leaf 36844061052384105106122322610602728161061875141106041519910534076461046029306104100602710353714531031330066103010484510368567321052368119)
 (.leaf 36868051029364454103208673010413653131048479896103297865210012421630948519031000000000000000000000756640766097320614110239394201033481285)))
 (.node 2 (.node 1 (.leaf 36880101052652874104081052210453223071053678757105304855610510002931048607188106547985110661622781054543954103440907410328393461033080960)
 (.leaf 36909051020564821103471886610404050581031095303102349230609852258180000000000000000000000000000000000000000000000000009756574751001481703))
 (.node 1 (.leaf 36942111049266922102825505010258192671035829136104444535910535095971057597153105626117710545123071057476858105113889010382795051032564880)
 (.leaf 36944101043612371101641521610152001301025599128103625665910442339661048761430105628617310561681071051955886104069068610257263121019068266))))))
 (.node 16 (.node 8 (.node 4 (.node 2 (.node 1 (.leaf 36947111048022626102764021410264818021035400011104230858410492815341053177889105697294310547160741054144815105168037310418141651032272294)
 (.leaf 36965061036591766104030201910414231261040301080103863073010383507171035119308102779116310247730501024144852103368880810374892071043233414))
 (.node 1 (.leaf 36984051049345422105654381710594247321065912946105621192910336728740985091056091151669309525134240970283663097543387610397562231053474945)
 (.leaf 37008111042567769103450848210349720471038971358103964944510413420781045485421105225367410463791871045996357104326990410402906001035198378)))
 (.node 2 (.node 1 (.leaf 37010111045294132103864243810413928581045494901104449999010432149851047964013105328946110492681081046732780104579893910418510631038216614)
 (.leaf 37038030965065872098604795909823443890927236286000000000000000000000000000000000000000000000000000000000000000000000000000000000972132427))
 (.node 1 (.leaf 37062111042713837103012182610289839111033605107103791596410430855341047431889105126512010505271071048255505104466497810387318001032662502)
 (.leaf 37164041032564761104464461910471022041044834150102163249309832221270907398788000000000000000000000000000000000000000010148790351042547670))))
 (.node 4 (.node 2 (.node 1 (.leaf 37215041033208453105091073910469620851037556237101340598209767224400000000000088499826509085275260905731962092017092310143436321044903862)
 (.leaf 37264040978778216099213876209737152320985286151089491962700000000000000000000000000000009481030520968637036098239056309861073510991716325))
 (.node 1 (.leaf 37285081061111510105170827410564997891061861542106754516310672726581071187220106623166410585872601055543445105349094810519838361048643600)
 (.leaf 37343041034203554103752330310353046421035141460103302693910313861391028418216102824694610307158451033790844103679940910376788891038196026)))
 (.node 2 (.node 1 (.leaf 37346111056924639104291537510407371801044518786105526953310611683381064624387106302918210614391211058992709105819870910514146121044113215)
 (.leaf 37414061032876401103380959110330452601034873154103429752210332311211032060054103209055810319059951031619199103228143110322838381032929293))
 (.node 1 (.leaf 37554071054250767104147968010493749771058964873106217202010650237231065490856105228198810496612221043180817104118581810404036471037437598)
 (.leaf 37593111044028704102420978810191709321026578051103120516410445191491053970058105469630610524458351050458001104499548410359421191023563247)))))
 (.node 8 (.node 4 (.node 2 (.node 1 (.leaf 37597071052719248103908704910466321011057613680106088142310628057131063338828104992512710515474231045233666103942331410368165941036230225)
 (.leaf 37605041037675117104012266010377019331038092020103563577810340167491033793915103508849410352711111037291247104104706410410863451040691426))
 (.node 1 (.leaf 37654091052070179104528345410508506591056239943105928152910592034151057471837104880755310532669591048886019104694613810441364331040872524)
 (.leaf 37659111023953655101548883310099931101001481695099976445610198629101029946878101978913110249558181042171946102597836410117533051011239463)))
 (.node 2 (.node 1 (.leaf 37708101047311290103128064310397026811049198695105153600810552550171057362559104559458910507024161047453589103991619910341117851030434554)
 (.leaf 37809091059621978104910118410547381141061125300106604343410670088601067273702106020271010632119871058498029105111351210475344671047095287))
 (.node 1 (.leaf 37852101049681199102939590610237127311017660876101537648410126998321050728783106282703610638935091060622587104953808610379920291033759138)
 (.leaf 37952101045450765103107619310254333531021713124101653386310133547001044426756105798544210607602431055039540104363263510374570561034561843))))
 (.node 4 (.node 2 (.node 1 (.leaf 38010101045715644101156669709923646250965050823098401946709874076541019816597105987397710656008391058345233103305057710275922481026283082)
 (.leaf 38018111059182425104167163710399469511040611706104702211910597162681066113337106968622910693143651065223372106034426410514626041044194791))
 (.node 1 (.leaf 38051011024331779102421806610189124141015990880100876523410042639511008335042102773795710359105301029703658102741027510253093031024699364)
 (.leaf 38054101042820194102122666110111129040998267644099108113909932157471027300936105719375910606196841054599020103737454910314042201028681715)))
 (.node 2 (.node 1 (.leaf 38102101040503551101767479310103883701004376751099787847009937906691028715307105560235710574656021050895728103357263010263445301024120743)
 (.leaf 38109111027074769102403697410195072421016601166101410235610152838721031902518103915092310247543731036557291103024872310179085291025575223))
 (.node 1 (.leaf 38116021033859940103462178710320473921030448964102663813210315913251036109909103463372010323230301032019262103602585710388760121037624928)
 (.leaf 38190101014051111089341947700000000000000000000084699669900000000001014290655102945606210261254061029839954100953994709747492480965352217))))))))))
 (.node 256 (.node 128 (.node 64 (.node 32 (.node 16 (.node 8 (.node 4 (.node 2 (.node 1 (.leaf 38194121046863915103921880610336528851032570674103266274810483779691047214109104719585710516438831055486327105439948910496061021042184100)
 (.leaf 38247101037054914101360114210077681981004487550099978969309955238491032074146105171986310541981761047825992103254289010220179951017760033))
 (.node 1 (.leaf 38297101055803713103741022710337498041036553314104714425210575287071060885849106615625710666065231061728199105510763910451237181041010645)
 (.leaf 38298111050675675102836056510244585481027662408104064511510506172321056371618105931374410623295691059226051105382877410401343551032569823)))
 (.node 2 (.node 1 (.leaf 38337111045299463101450908509976117360996955505100943153010290916501038779509105653783610599820021056350436105338149910407375601025493482)
 (.leaf 38347111055916905104245678810384284561035027672103323372210377561041058200681106633019010660316311066320165105925572710513025121047493300))
 (.node 1 (.leaf 38389111029682846099676841509869737410966689352095988339709851336261010012489104270904910487437261039677227103382410910147166311002066410)
 (.leaf 38425111045992294103060880710235976641019304309101914078210318156621030643486105719724210610133341056386976105136331710402746881034539056))))
 (.node 4 (.node 2 (.node 1 (.leaf 38428121061704089104442380910391012241036227052103255601010332279801049158802106483604910701130201075718948107522587510638953381050450153)
 (.leaf 38511101018551919098838339809832799040981389998097645051709735868181002208059103182593010376175591032132129101432275009979724720995028223))
 (.node 1 (.leaf 38608121049738275104254932610384607331035571588103311505810370658951051509663105325112510566675701059203008105732317210499157321046297378)
 (.leaf 38646111057313842103963907110351441581036013201104112595310527206701060655601106568993010676707531066480376106012840610522389661046329485)))
 (.node 2 (.node 1 (.leaf 38682111064389050104810281710428869661043064721104889117010611380961067747493107031185610745804931072403552106863500310641964661056526521)
 (.leaf 38709111042497547102747316510136644760994035665096610727709689929701021673499106126462710585034701040861053104325130910368153711032422837))
 (.node 1 (.leaf 38826111056911338104373644910391907001037090272103881226410456742981054718174106073791310657819721066655370106637951210566905831049702551)
 (.leaf 38834011027317397102655405510233406391021558646101826030010162111471013868946101646862210334967471037292635103429380810319265211029057597)))))
 (.node 8 (.node 4 (.node 2 (.node 1 (.leaf 38836111031660899102555438010220128901020183778101701510610181822351022755002102571321510429648321045029487103338856310298750931027579677)
 (.leaf 38839111033500831102372930410184050591016404265101228924910093197841011067017103301664610499807701047557031103591795710309042991026740866))
 (.node 1 (.leaf 38867111060603411104465999710405710221039812751104417255810580125721065359757106922710310728592101069903170106256623910541746511048936892)
 (.leaf 38934121056080367101645277909857018291004906032099868565210240322211060506572107075049710675696671057492978106022232610589672541042237068)))
 (.node 2 (.node 1 (.leaf 38983111051894680104248202510378039751036284461104175724810522323761056731632105816489510592855941057989261105682596710513562461046857652)
 (.leaf 39093121056168191104937287410456633481046023799104549601810530306141058032915105888187510589781301059713484106189488210605183031055907689))
 (.node 1 (.leaf 39293111061659918104430850510452737311050152815106101672710672168741068938943106883522410662645131063040791106341104310596873631051951315)
 (.leaf 39300081060666588106287353710640052281064228367106535096110696175081068633480106088881410546523301047344958104324400910415343651051312184))))
 (.node 4 (.node 2 (.node 1 (.leaf 39408061061805986106335632110614532771062827405106428844310648243651059708958105779922110539748341055645834106205591210661001021066044610)
 (.leaf 39436081054282191105114336210520293071055572464105653697610574479351055883814105511096610518748651050510891105420266610567440051053845716))
 (.node 1 (.leaf 39486111047883579103712012610353397991037187088104411282910508992641049409543105484319010579073811049002622104835331210439509441039716055)
 (.leaf 39619061045046865103872374810341728871031437430105597835210595968311044560724103904994610348237021031591414103502679710486321391044839557)))
 (.node 2 (.node 1 (.leaf 39871091036467118102905390310303581241035643944104037300510422162211041523815104082174410388625251035876859103398045310318277981029779295)
 (.leaf 39968061059030128106634962210643574801066275018106467718910605018551052081772104690134010414308461038783115104867972110594546011063648939))
 (.node 1 (.leaf 40009081032591879102611371310311886001036671318104156966810404429941036810080103400495810303019551025195623102146541310177117101019672188)
 (.leaf 40042071039202520103719287910417731471050821657104941647710434198601039647443103378908410272372381023610185102176577210239361171030666274))))))
 (.node 16 (.node 8 (.node 4 (.node 2 (.node 1 (.leaf 40306051040857062104745826010453243181051481933105018476910368786411032047787102833230410249260101020926481101798122210286838001045251659)
 (.leaf 40341041034548911104735458110487791371043331007103211150010275801971025500705102284284110185773911015195201101135815410086644921036190892))
 (.node 1 (.leaf 40392051058822662106957533110679347761067399455106058902310550225341049657960104617706010423777711039188803104087531410511042131063399402)
 (.leaf 40829041050261659106382397710573332381056414159104858023510425025891038980508103499820610320717421033021902103216478810455144351059828433)))
 (.node 2 (.node 1 (.leaf 41061041032006720104119968210484189991040231061102706195410202679281015163174101366038610093324041011098867101432246410183213651036248742)
 (.leaf 41079061060811816106064928010587881081059397670106210669110634782991059944381105799398910590500671059908552106158681610644249671062412967))
 (.node 1 (.leaf 41206081038627335104476733810470721391041225437104248405610432315471039122647104114667910282372461024782798102488206610262257441028228891)
 (.leaf 41215111055681628105003940310500260051047918906105137327410577311821059469337106104075410594595121058200481105905444810515215761048848039))))
 (.node 4 (.node 2 (.node 1 (.leaf 41272111059530160105278478910514993191050227603105641668810611111321064708395106577238510634000101063513299106348236010585091621051140574)
 (.leaf 41331031017074738101515308610173357481014978714100980106310148629481016394882102438101210225809401022989283101679375510154484691005304442))
 (.node 1 (.leaf 41334111016925408096313383309469473700957287651100116450609907462901027883832103319347210265574231022056335101801098410044897820987637249)
 (.leaf 41521091033502561102975648810322602021032670812103362964410341789271036932599103747204710403963251032426598103120278410305202171025034667)))
 (.node 2 (.node 1 (.leaf 41537101019574331100480202109973875471003159646101190974810078535391018628525103290302110334966231027768181101816017810072315051000974995)
 (.leaf 41556111055199576100698048610130542931026039257104417629610634796541066180761106624135010605048771060110229105566136310407369211024591849))
 (.node 1 (.leaf 41602121033644023102387171610182635531017081090101385949010139373881020155571103562492410429491991044738862104374237510367478621030914823)
 (.leaf 41616101052821007104169787810387704121040707711104685805610582120291061125122106159688010576683531055342756105185598210478111191046604362)))))
 (.node 8 (.node 4 (.node 2 (.node 1 (.leaf 41659111060459588105190793610486466641047444633105069331410608962371067466374106850544310670741711064377807106190979110582520761056012365)
 (.leaf 42455071039981085102166157410181519741016884977103983669610584791381043134171103879432810370911831036955929103838090610318312301025673391))
 (.node 1 (.leaf 42678111057840358105048674210466474511047466239104959793710674891351070242506105700153610529123171055568483105910685210541697721052353150)
 (.leaf 42679111042253015103228162410283765281027479330103086165610518244961055151929104463891410424232981041509970104249564010387790571035093061)))
 (.node 2 (.node 1 (.leaf 43043091042746381104241917710412950751042310867104346921910436657691043309302104348216710430638961042335293104261856910423197211042667518)
 (.leaf 43139011047640939104638484310436779991043592259104276244610481221281049469089104930789710493191571049098910104940429410486456831048117538))
 (.node 1 (.leaf 43539061049073591105040461810496183601051519244105058385710497299881048733134104778253110465263421045540423104665834810476060011049797064)
 (.leaf 43853071050422244105218400710525863821054681661105407381310530117351050861777104930140010464541371044365516104526116910468717491049737874))))
 (.node 4 (.node 2 (.node 1 (.leaf 44131111002761184099982599909983022530998741248099984483310055930711006915866100746882510056210841003708667100346436510016757671000853457)
 (.leaf 44175061052765066105467658710535682841054744674105361284210531549351051984355105163659510510562391050629375105173133110524329881053952582))
 (.node 1 (.leaf 44215081056565364105038829610469609191048296471105622315010671722541061065743105743205710548592401052809945105480668010563230941053084916)
 (.leaf 44243061062193544106764246510669869251067548772106572411310632990251060073177105459568510470185111047108738105330288910638588021067177367)))
 (.node 2 (.node 1 (.leaf 44285061033342128103521854010342398931035248552103437411210337466821032449723103229441010309697451030292503103214687310332200881034736750)
 (.leaf 44287021048722791104897649710470516391047830823104666680810479567751048751136104941304510494143731048980841104920883410488902881049133454))
 (.node 1 (.leaf 44288011054464677105433117610520264751052087362105315753610580801851055921181105583923010544906111053268487105410641610542286711054923222)
 (.leaf 44326061052790082105419863410570416121058527731105877097510573525021051949479104558091310404003721041199289104445951710530056891055827926)))))))
 (.node 32 (.node 16 (.node 8 (.node 4 (.node 2 (.node 1 (.leaf 44400071031057460101965903810188659901037551434104416254010395424861032989303102925619010255179651022227839102039857210184265421017298314)
 (.leaf 44624071054310641102061915210202734981042758474106910873610699007821061891136104934901110468506951044798555104483433610395414921027685006))
 (.node 1 (.leaf 44629061048954047102861910210321498981053991719106841353410650125841042060656097426459409097377220916602173100692333410262396101031170989)
 (.leaf 44648081038519506103406052210348678491040735562104220734310430877081042249823104084056510378421721035710556103520196310337833411033462633)))
 (.node 2 (.node 1 (.leaf 44660041052108611106133059310597069481053656374105113750010452641411035715478102660375910178366631026401916104984631010578718791063193117)
 (.leaf 44661051051637243106346532510612738731056939802105329297610487071581030697699100573441309577614690000000000103273114910496686721063487052))
 (.node 1 (.leaf 44724041029415746104570450210434048171032184149102119735710062903150960982075000000000000000000000000000000097895621610197308361041042726)
 (.leaf 44748101041581750102167778010188714571032264154102790881810218606661028672861105552554110593933391044509248103632473110328351391027798419))))
 (.node 4 (.node 2 (.node 1 (.leaf 44768071043366152102236595910246026621049185672106184749210577489701043676575101692957609758606921016241671103274735910323503291027516992)
 (.leaf 44799061039541948103707482110422257671053206446105347615210420107451027330116101868811610138110581009996193101085570510262701411037034060))
 (.node 1 (.leaf 44813051057678392106861592410683588101068387745105912687210512433291041611877102728224310205491911023648609102604236510526262741061686668)
 (.leaf 44828041046886249105755859910558499781049090290104623750310420485561032258616102161820010120556021012154042103569991610497265191058087666)))
 (.node 2 (.node 1 (.leaf 44871061048131543104970581810511903571055523757105187459710507737431046271569104333475410417543441040415266103983632610425013571048032819)
 (.leaf 44901071041381180103710465710413650101048733598104356863010445021691043475027104051644810334935301035481118103966975810408106981040195663))
 (.node 1 (.leaf 44909051026801921104010614010401494181036627997102936160410206354831005549640098229618509821683630987204704099474316610117677341033175676)
 (.leaf 44916061044338628104430647710488793441057672880105949457510503383901019031231000000000009841297451017726261102802091910333998831040754024)))))
 (.node 8 (.node 4 (.node 2 (.node 1 (.leaf 44933051046296307105401714710614255421061385063105403388710368784360996858434089325909809227611790943724122094997903010103961481039891199)
 (.leaf 44946061049137991105100017710532572061061682789106018577910498470181032168339100065809909901410531000244098102935969610452535671053511155))
 (.node 1 (.leaf 44996071042562478103004443210343836961043298559105153992210607157621050304471102484336210152002551020431778102771391310328041411030231694)
 (.leaf 44999061037726945103586952410379338791049753789104120662110410049941037333734103040514810298152211032368178103179217510352937751034495587)))
 (.node 2 (.node 1 (.leaf 45000071052622089105158451210533044271057999496105422165110566452811056092688104946534610434184131047723280105075577810538261591052387991)
 (.leaf 45001061056965744105981840610596033241062712483105804830310572664271053486113104462580310414362181048739726104772067310612252301061512645))
 (.node 1 (.leaf 45003061053152556106040402110619695961063709275105857979210546175401049696313104305106410386053231034360124103407834410402445731052060575)
 (.leaf 45008051043692732105725443710534529241051293570104409041110369762561027168460101577883610071165261010861699102424588810383564721052634022))))
 (.node 4 (.node 2 (.node 1 (.leaf 45012051039997574103664359110434849171058105036105446447210363964261008383381089723959900000000000000000000096451175710278486981031812917)
 (.leaf 45042051050447739105560452410594079341064881298105888622610408417181012878505098177497609869735051001177264102269099510489965871057453680))
 (.node 1 (.leaf 45058051058960346106674673210679342561069463830106317245610572810771052003938104745281610441977351042093427104645234010498928551059373335)
 (.leaf 45075101054227850104099288710434270301047056178104653999810479945621047270602106623991110657356141065262055105088068810430061661042572574)))
 (.node 2 (.node 1 (.leaf 45078041007617728101937909910159782641012806428100344830209919958050959908346096596419509875062420991955387099994959010070614041019397062)
 (.leaf 45142061051277803105691155710573870101058967659105528904510535568091048439135103894379910336548731031475946104027508710506476191057558216))
 (.node 1 (.leaf 45144051054127690106392817010625404771063355974105755236710504255791045379715104173012510412052551035261531104287059210486493301057315679)
 (.leaf 45160111034779195101906627110193085171023103428102466491410318379771032098453104153503210413761491045330419104348133210337450231024431967))))))
 (.node 16 (.node 8 (.node 4 (.node 2 (.node 1 (.leaf 45169051061291347107109309510700765971070256011106318741210586013161053560295104923792510495603001044004285105096975910562467451063089269)
 (.leaf 45185111036685815102143936410225767981025766308102337330910329747621036179816105001501510484581381041155948103892681310313869631024392686))
 (.node 1 (.leaf 45218051050793156105945821510600224551061932944105667231310488920361042905032104109708410360860471032829915103286408710362917791049585716)
 (.leaf 45220051048528033105768965110583802801057960093105031446510442979251039539621103736759910353498221031820728103459424110383924961048286662)))
 (.node 2 (.node 1 (.leaf 45275111043194472103344280610354897361040714812104019541910383227881045126558105316390910495886341048040510104444822710403447191034215778)
 (.leaf 45279071033647586103387904110398138101039269346103843427310347826731035168301102332328110234561761021587953102528985710330689751038451135))
 (.node 1 (.leaf 45303041017120512101871099810180588611019022184101691506110152324761012943221101010258710076128591017242989102354637010205036381018215692)
 (.leaf 45339051033577615104476870310491383721048686505103949343310136474580990978798095229963100000000000871242121100727567810166387271023662212))))
 (.node 4 (.node 2 (.node 1 (.leaf 45392071030236183103040225110321794141030584526102716419610269287151035328520102644980710209591231019945778103381972110319456181034944723)
 (.leaf 45421081061398588105055492210560466131063251478106723358910677861491073248681106757542810553816971054196557105183109710507189891049031366))
 (.node 1 (.leaf 45464041032888182104989829710488324141036880179100947534309695994300000000000000000000000000000000000000000000000000009918992261044329051)
 (.leaf 45476101055582616104856245510497207131056361170105771922010577237421062521115105547412210590383121059200964105276773210496465391045160444)))
 (.node 2 (.node 1 (.leaf 45538101035589699103273065910277841831022524078100735631110020719151010083409104787305810529051541045369129102435241310171813111026290601)
 (.leaf 45605101054607839104147671010384676051039702356104652060610572161131062708221106386263410623887611059232356105455792010483650211042395334))
 (.node 1 (.leaf 45610101043278967103794092210343084691024123024101466277010093072301027307547105429117910591854521054458795104114627610321031451033612315)
 (.leaf 45639111053591263103811203810355839201036600297104338192410555505421063572993106451242610606823471058181408105365538810454865361039702511)))))
 (.node 8 (.node 4 (.node 2 (.node 1 (.leaf 45663071057858669105021233610541769111059543468106550608410674203351063820487105761271410559960741050509779105107073110487735251045164560)
 (.leaf 45692111046625430104074292010288842461023665983101659303710123628961032705700105785549610613321351058471215104763319710351829281037669155))
 (.node 1 (.leaf 45719091053359031103505347610434965411055012458106183548710630165161065914341105235205510537915061048677524103939584510336612981033241600)
 (.leaf 45746111052571120103392666510273893161022088246101506014710129619791049162842106538565510674471331065964774105310164510421907581038515872)))
 (.node 2 (.node 1 (.leaf 45748111057901353103819075810361020501034786989103437917610484753571063729426106987415710692765951065265219105998279810507747371041885289)
 (.leaf 45777111054542474103513051110293691901023709913101654045810183637571054709486106722310310681910151066692885105580989610436512941040111936))
 (.node 1 (.leaf 45780111059922578104362593310393960441036665599103292861210405508461060175372106599282010732683061074163139106579809710541271771047916428)
 (.leaf 45826101061167886104311909010407119081042557938104598951410622319921069044736107269458210720493311065954416106085630710531546571046269190))))
 (.node 4 (.node 2 (.node 1 (.leaf 45856111073565984105079845610428715591040189779104934447510680154491082492333108610313210840198351078323184107455539010621937451056500196)
 (.leaf 45877101052989861104146726410404063721041864831104454825110516856951059533553106255336910642844221057849686105141754310440876211040552591))
 (.node 1 (.leaf 45903111064403509103756000410258908901018876361102646147210471820701066053736107882714810791554671071428733106523933110527531671045323451)
 (.leaf 45955101031409266096500439109204701720000000000000000000008663028791026807238104229083410505183771042764215102826546909970007921006661827)))
 (.node 2 (.node 1 (.leaf 45962111028123966102357686010201551521017116039100921981409991395871002906879102644810410357555821043224790103727626910267373301024887366)
 (.leaf 45982111039367620102623911910262271001023123592101929442410178695931035866142105189689710508050751050929130104193355210211424241010660646))
 (.node 1 (.leaf 46008111052761592104057288410358106091032912416102869552510276402661050980729106272960510638484691065406670105886733110480329771043054009)
 (.leaf 46028101062895204104385782110407678101042480138105247584110640451211069306944107431438710742003461068922738106121974610517744241047872175))))))))
 (.node 64 (.node 32 (.node 16 (.node 8 (.node 4 (.node 2 (.node 1 (.leaf 46029111045077872103254395710277790681025102122102150877710231926291047369321105507099710541406111057297001105132447510405319541035425550)
 (.leaf 46054111049088580103424824810300645401026277340102559608610309617111053358700105873221610576281851058976425105403542410457599101040369803))
 (.node 1 (.leaf 46098111034027923101053615210063571351003420078099944258109968136691039368245104539587010448568701048127858103894728510201096041014930666)
 (.leaf 46116121047280508103824108110316374151030120305103032806210389046171046598391104849409510537674501059846584105427822310478418701042699411)))
 (.node 2 (.node 1 (.leaf 46153121062302161105619089510504256221047730753104446347210530281641065705585106584248310679272201071015309107006181810639223131059794453)
 (.leaf 46167011066076755105396828010496715061047337593104925626210583720851064514951106878727810705498211071935759107477177010741105191066686292))
 (.node 1 (.leaf 46172121010042237100682740610023948611000927907099821155509949491800991639872100847773210235918611019796760101491174610110586381009006652)
 (.leaf 46184121049546419104725902210440269191044068789104243689910417561991041145630104526509510564939431057456011105718689010506053801049105844))))
 (.node 4 (.node 2 (.node 1 (.leaf 46186111056600864104199512910371746611035715632103810660910515087541062718533106242736110632777571066017758106331422910522408601046232194)
 (.leaf 46222111070767368105316716910490925631048971056105324371210672214331074946071107803845010825439721080005216107464061110678667621060374694))
 (.node 1 (.leaf 46273101056310771103396059710132460860983333683097868523810067056771044107781107306087910740240031058664265105552996710493137351042780797)
 (.leaf 46421101038898893102830652610255414541025709038102414341410242275351024782550104637386910559984291048879135103623060210304860881028741724)))
 (.node 2 (.node 1 (.leaf 46481111042686419103245296010275880051030908388103071794810419228501054566569105067687210427670401044927484104701421510415787661035688316)
 (.leaf 46486111065805284105462279510499053341048310698104561889610539613641062820350107338711810759505911075492977107293315910624162441058390299))
 (.node 1 (.leaf 46594061061568989106001230110604147891064263612106445045510641124831060412991105918771910569658051056770971106302157610657159771063039611)
 (.leaf 46722061050753838104333798210386881381036687636106087403310654642591049735874104287205910392484391034716523104239646910570689101051325684)))))
 (.node 8 (.node 4 (.node 2 (.node 1 (.leaf 46766071041025964104331069510414801301042952645104536852410480985951043565238103888472410317497301026001162103048359110381568481042638765)
 (.leaf 46784061066230506106874394410672096051068578863106844323510686198621062411627105810255110572046081059228072106679396510692823491067914390))
 (.node 1 (.leaf 46822071044594812103852946310338974371039733552105728563010575384161046476215104081948910383198451034989172103483788010399564741042768496)
 (.leaf 46919091039125203102436706210271064261035957532104657570210487826961045290939104287444710402394221035817343103318676910296292521026778012)))
 (.node 2 (.node 1 (.leaf 46937061019782182099120680810172249691031708816103937718610235757781015594447101222789210107120041003871808100008333109962392140993753037)
 (.leaf 46966061043746998104132016910363282041047343460106256966810437470061036807876103477700310332094681031176134102947838410422173981040376016))
 (.node 1 (.leaf 47027051044011466105187221610552021691056128385104678289010412504151037700935103540732210331358371030069288102755665410264697981040869497)
 (.leaf 47208051055583668106513777410611076121062385802105814326310506499521046104478104270059210394994681035431129104006774910570759621062854108))))
 (.node 4 (.node 2 (.node 1 (.leaf 47233041051265986106385848010566517361055910074104585131810393897891034720873103223407010278803521024343638103925350910569790111063874428)
 (.leaf 47265041057090971106738368110623727711063595361105508053610485402161043619643104085625710367658731033459248103943332210588177221067216430))
 (.node 1 (.leaf 47331051063400621107462948010701540611068765172106358308510576723821052739897104959112510459947021045159235105190610410638923061070796619)
 (.leaf 47388041042803572105343811910611439811048830363103663221010289199511024704478102144905810174767481013848081101213244010287573601048690952)))
 (.node 2 (.node 1 (.leaf 47481071058969644106484170410660786421063702065105773771110580716171060461313105671085910528472861053971934105514867210536039861057464357)
 (.leaf 47627041037804624104834601610484499191041905407103458969210270636581021630077101974550010171045021020044950103235739710401486081046918227))
 (.node 1 (.leaf 47641111061098875105789128610585803871057816239105636626810597524111061878611106601721510657135181064510296106514556110602387261057952504)
 (.leaf 47660111054893376105104407210518329551050956041104960958510528212001055104406105914371810597741941058620290105798187510535444301050626106))))))
 (.node 16 (.node 8 (.node 4 (.node 2 (.node 1 (.leaf 47691111066082366105880909610579906591057216476106196211610666744601070046886107191995510698565431069599863106913935810654547271057848776)
 (.leaf 47800111033231614102111942310272224111020646309102854750910263944121033349136104233612510435776331039215220103465751710296454511019620244))
 (.node 1 (.leaf 47864111050222513103618001110315396981030595825103197521710403579741049046354105839436210604924901059650156105736690210494083131042832554)
 (.leaf 47935011063837063106339751710568280031060348464106175195010630981111062847956106139026510652863471066604440106890391010656244711064821845)))
 (.node 2 (.node 1 (.leaf 48380081038175810102397037110223409291019696846102341387310437765441054692739104477462610366372131036310814103694841110299898611027512458)
 (.leaf 48494111045307615103974937610361270511035565157104082794410558326331050466059104877247210465580031045135697104567171110433537191041728101))
 (.node 1 (.leaf 48576091050588811104130300510383190361037583720103788354610600984971063356585105277424010508220651049538541105006127010476012721044242812)
 (.leaf 48577091048792557103395290610311289781030356335103451795710598466321061358730105089079210496200501048790018104874826510416833941037692158))))
 (.node 4 (.node 2 (.node 1 (.leaf 48711091048925332104514712010430629991043752973104369816110532152101053692484105114763810498017891048713832104892137910486492741047383513)
 (.leaf 48739081057071999105276223010508324441050961637105115734910658564711062885774105787392910558562161055316419105674148510550829401054096925))
 (.node 1 (.leaf 48870091052649800105245050410512106721052466119105356704010536483501052876341105306478410527957401052174598105257799110522886401052676821)
 (.leaf 49223041053249559105554066510531602031053250854105147653510503454151049981958105161751410526822431053498899105539695810557448871056298575)))
 (.node 2 (.node 1 (.leaf 49341061019280915099739699009926281490993611155104133036210296258701018792115101503404010107055191007680763100592430810028244941000421827)
 (.leaf 49412111057276045105015588710466976051046043077104506555510596996251069327334105974689810572664581057241367105860690210563247171052864309))
 (.node 1 (.leaf 49413111056021742105129188710487100111048209003104788094510590095181064969556105883479810572225331056463455105737304910554739221053704782)
 (.leaf 49496111061223212105557213510516905221051322519105490597910701175831068184238106515421310622417871060451575106155562010603693131058334036)))))
 (.node 8 (.node 4 (.node 2 (.node 1 (.leaf 49568071061322393105868024910586515091060251152106543496610694924301067612938106000947910555670351057034201105791433510588292321059211714)
 (.leaf 49609081040585744100119503909948724641034670806105708240110443491521041553238104909785910390086431038352375103472552710291481621008458291))
 (.node 1 (.leaf 49749091052545125105176331510507601681052094785105302600810552908381055084361105465229210531550731051506142105117759910506720931051358822)
 (.leaf 49775060997729380099137891209868766411001144350101564300810127166970961913128094955613309758758650947477467098588473809891294920987318879)))
 (.node 2 (.node 1 (.leaf 49783071054821815104672966310462652301053358286106548568710702537411058476981105013182010449539221043523167104369123410428791361045459028)
 (.leaf 49784061038095897103093069210334179401040878371105171943110565026451036258529098147741200000000000000000000101526197510282717171028933714))
 (.node 1 (.leaf 49815101057015290104203067510379740491043352556105395099710528691191058175868106704762210682892981061633758105406767710500485891045551323)
 (.leaf 49821061041144406103378164110361341411046891110105462496510545986851037664822102370704610178988621024290340103275758310337304161033313665))))
 (.node 4 (.node 2 (.node 1 (.leaf 49834051057479605106092787110614561371062349531106297401710571415211046810182104079803010354589931043956390105185008510616375131064009163)
 (.leaf 49859071057286123104101976110438031841057702227107446554710708005071058408956103469680710283718301034065484104691107410502103951046871258))
 (.node 1 (.leaf 49887101043670723102524929110237660391034367386103217609510250807061027802447105730377910616230421048010125104024605110356935351031908337)
 (.leaf 49888101048754895102933203110246314491034544314104205330910363188351040016405105747986410665131231054594129104498939610411316201034851074)))
 (.node 2 (.node 1 (.leaf 49931081032143117102223250610256608971042767638104041425810385165381033601424103249272810240411491023803498102460773910249746301020059144)
 (.leaf 50009051049670000105440380510578283731064129566105779669510468470911034545746101571476510013019791003271361102141171110411427861054849204))
 (.node 1 (.leaf 50029051056816092106393310810648601271063218809105769923610562074141049576302104277173110402407971044531150104165498110539830551062837745)
 (.leaf 50031051054217202106063758610611916781066133315106296781410507174591028566795099012772909988240571015318996103695160210520497371061237576)))))))
 (.node 32 (.node 16 (.node 8 (.node 4 (.node 2 (.node 1 (.leaf 50049091010603893099968530610000756721022463292100908708910032202231016146332102087865410184443261009744451099348059909752018890992678252)
 (.leaf 50051061059017808106722309610677097591068710386106355837910593739021054887220104906530210440315231040861779104091609310465952931059507327))
 (.node 1 (.leaf 50066061060064073106427223410643081111066686610106168995410603342281056764483104864412210442579461051215194105048844710657386021066098723)
 (.leaf 50068061054603540106045229710644297011066125760106017223110550026091050462171104471383410410430861036508259103586048510384813161051559546)))
 (.node 2 (.node 1 (.leaf 50081061033266529102816113510311609851041283111104738676510423111831028711715101820549110165521501017006689102339714510283225361028650289)
 (.leaf 50109051058732916106276413110675584481075270149106882916110497869921019976965097849931809828466751003061914101538988310516985431060304572))
 (.node 1 (.leaf 50157051035892081105120770610492929361041267667103683669810268848611008140142098808610609819204200989089337100920109610230566851043622874)
 (.leaf 50166061053748961105780819210581478641059729823105684403310543026611052118802104531756910413388681040605908104538110310552850711059724959))))
 (.node 4 (.node 2 (.node 1 (.leaf 50168051054751957106318855910626327961063776141105811981210524965391048524576104637593410439483361040644995104361307010483663861055486117)
 (.leaf 50192071050137694104985621410530622791055153710105076615210540812311052184466104122457110377523491038021532104926223410514619941053310596))
 (.node 1 (.leaf 50199051060040052106771234010714168611075521010106545095410387917631010555238096666342109803960310992779218101987697810550794641066707223)
 (.leaf 50242101061210741104393042610496726951059961408105758110110571913141053030178107388313210770763751066332136104674535910413531621041964851)))
 (.node 2 (.node 1 (.leaf 50249041018844720102086498910222901141021035641101751720210156005741015071773101010155710075433871021058274102431484210236008261019843047)
 (.leaf 50273021036640652104183879210344508701025869607101656219910124454321007290551105012859010484806091032908378103643081710285947461037809070))
 (.node 1 (.leaf 50307101066750651104831731810514758361057640204105570098410584219661064446469108005624410830107771074050945105730742310452488851042619307)
 (.leaf 50310111064987804105148834510511122241056650607106157856210672343691070770044107406534710685477191067825931106622911910598700151053954905)))))
 (.node 8 (.node 4 (.node 2 (.node 1 (.leaf 50360091068032041105721425410565778421060299454106821504910737655051076851187107594655910706677741067161431106749260010638276051057014590)
 (.leaf 50408101029696536101778750010120137661005249212100491336210009981021022679647104118050210432040091043837718102892778610115831091017259065))
 (.node 1 (.leaf 50444111066464777105183761410496754051050265350105778178810683409351075742872107591270110738122161070224172106661848510590869291053121664)
 (.leaf 50445111057243574104641238910452089141047851483105548056910630251151066134289106427473910592443221056323589105742698610518807691045494284)))
 (.node 2 (.node 1 (.leaf 50462111041599535103209033110256800791017736086101431437110108579921038571412105299017010542912971053675898104364619110303415801028522682)
 (.leaf 50481111062173714104549496510430788931042245023104544811610607671691073013869107402858010701265911067434043106291894710538471501045709981))
 (.node 1 (.leaf 50484111036095378103545203910266138531018284948100836395410051751431010537011104235173910504294261048999471103979819010260473461031899330)
 (.leaf 50529101063236152104244197610348739941027198385101915314310166656161051428329107604084910822580031074687964105648050210492442501047190037))))
 (.node 4 (.node 2 (.node 1 (.leaf 50530101059694049104330539610379991241034203653102900736010256817831057996885107323090910747256451070820372105778694810511689421047680009)
 (.leaf 50562101053848501102788272110193685951013262582100805491110078409521030230592106791267510741882381065881540103759920510336181061032663604))
 (.node 1 (.leaf 50564111055130221103767549310341084851033493428103436058510497656521060161267106599947910660262251061936603105780510010525453951042083734)
 (.leaf 50672111044284433093768066500000000000787343499081178518508580559581041929159105942118810589585631057813646104786019010173838231003575410)))
 (.node 2 (.node 1 (.leaf 50675111060288839104409576910388338941040867768104929201210595816301062716786106602935510710441141070764924106638542210540014741047591110)
 (.leaf 50717111049937333100735225109922110840992011138099359719109930228201040227630106711562910669339231057115494105151194210322590161023435907))
 (.node 1 (.leaf 50733111038587522097465113309044754530810887826095799820109661522231026059975104722147410559959211052688102104552579010236895600999493707)
 (.leaf 50736111055337269104221334510373925251035302937103400684410480374091052079105105789969810674546681068700396105974242810507524811045825860))))))
 (.node 16 (.node 8 (.node 4 (.node 2 (.node 1 (.leaf 50758111060316208104708610910421067801040287632103562977410346272141060281628106646847910677304981073973072107094458910577196561051394753)
 (.leaf 50887111068315019105459686010491890121046128664104646712910573825691068053473107384751110785022441078639234107767830410678116911060334591))
 (.node 1 (.leaf 50929111059855457105114502910466170111044109306104084582210434865951050045380106492769010728874701071784053106591542610583660231055091002)
 (.leaf 50949111050673445104274131910381872431035737718103283393010329966011040604388105239723510615710161063236058105808761210505983721046750143)))
 (.node 2 (.node 1 (.leaf 51011091061561709105569950810556852631058616087106077589910691671681072693319106865473610634499661056031130105195916910494168881051275901)
 (.leaf 51015121061483841105227900410481438591045434431104331567210495990461055566489106596596410700643131071935886107213578510617971001056928143))
 (.node 1 (.leaf 51071041077903937108309224610781427331078333358107641935010757061831075669865107441542410757464521076670282107755406110791424581082561726)
 (.leaf 51162081069180293106085410910656528401069515565107615274110789202651076008769107144475210670138231063826130106127852210593028431059169219))))
 (.node 4 (.node 2 (.node 1 (.leaf 51231051048775656104653203510559358301067434398105982128910410652891031241201102539298610273120451025257927102378818110200436651034879711)
 (.leaf 51244101033125333102599476710236155121024606769103123079710384621081038777777103876140410370560831034476116103275678410300927511028094149))
 (.node 1 (.leaf 51259091037916169102828172510261156881031657336104392647510444721681043123012104226097210406597591037370343103508302310326005941030734621)
 (.leaf 51324051072749535107993078710791160131079005977107529013110699625191063181824105891546110570186601060516027106783455310740333281076186703)))
 (.node 2 (.node 1 (.leaf 51355051050064952105481486110575259461061386224105580550110494778231045269318104253994310401876481037076576103596845110379905051049160235)
 (.leaf 51509041069215209108133663610758553851075734989106766877110608045471057138507105328954410498481141046099425105029624310697727731080032779))
 (.node 1 (.leaf 51519051065353996107589826310720646711070679312106548630010590775831054732172105109747410482105061046553167105232260210649110431072499111)
 (.leaf 51625051059551817106893285110679580071067040988106064592510555607181054351678104976811710465846801048873679104987074610549113721062337383)))))
 (.node 8 (.node 4 (.node 2 (.node 1 (.leaf 51857111055800540097141455700000000000860005847101634328710519507091066297376106831423410636738711061409180105879424210526617071037291477)
 (.leaf 52198011050967287105040433010490249671049533351104939539510522388741051181255105180742610516702141051648762105232579310513497231051027352))
 (.node 1 (.leaf 52253111053665952104720867910442829631043487858104168483510528083331066634424105868751310556190901054462480105508624710514947501049759288)
 (.leaf 52275011056736599105508156010522484961052014067105101133710570215921058519587105896575610585125341057828336105800313810573393611056855377)))
 (.node 2 (.node 1 (.leaf 52306101052386698104692925510441589681044025362104229975510467869351066348877105875206410549323931052826016105163571310489348781048438506)
 (.leaf 52485011057784444105738452010552956291055734202105402318310573134781060338474105926450510587359101058125730105834966510580273721057900250))
 (.node 1 (.leaf 52771061040904455104238672810417671871042904650104209979510417431341040697541104019084510388032791037658709103855061710398215471041271715)
 (.leaf 52862121050777954104921888010477582231049310471105055498210525883641054247658105450637810503718941047944764105029923010517869491050023152))))
 (.node 4 (.node 2 (.node 1 (.leaf 52867041060292277106145370210598247131060555042105966646010591827651058956602105921934210597290771060745184106160886910613447471061220826)
 (.leaf 52887051057581533106338606210615369811061226034105821561510556133521051887466104953077410492747011049522240105425156310586198491062059982))
 (.node 1 (.leaf 52987121061469695105544200210516562121051241343105198223710669584631067725436106552118810647206171065261898106434269710615094211058361065)
 (.leaf 53022041062220542106494832710623442931062373277106075267710608839601060660265106056190110603355491061012021106336089310642915331065121813)))
 (.node 2 (.node 1 (.leaf 53064061013779821101935156510178558041019977449102096090110157607840995253091095750099400000000000992931386101083689410176229151018586659)
 (.leaf 53074021058605970105902027510573782681057373286105706629410608113621059479260105938876010585459071057772547105847950810586293541059326816))
 (.node 1 (.leaf 53108121061043243105667802910524269291053349453106121541710685663951064113348106310862310622258851061020860106188956510612841351059207396)
 (.leaf 53124091020296046098691709609837994420984338513101965694710332436801015715191103728773010277580641020106417100395208609915449250989680328)))))))))
 (.node 128 (.node 64 (.node 32 (.node 16 (.node 8 (.node 4 (.node 2 (.node 1 (.leaf 53183061052138172106109651110625316361061767307105780487110529565041043452174101839020209740991210993835662102356024310462075791057525669)
 (.leaf 53200071054270077105325726410507310661055072148106018139710593118541056264002105286532910501683121049702460105137914210525516001054192320))
 (.node 1 (.leaf 53239061044400057103967944010416218481050956482105772285810574834451042877761102871148210213555281026204215103463704910384373061037885657)
 (.leaf 53246091023164307098406220009861529400997268036099996484710118184051017873827104340396710405812131015702974098082050709893732830983459995)))
 (.node 2 (.node 1 (.leaf 53255061061428704106480203710651369351066181566106737374010622218481051206116104376768410404417691051360945105934998910670430421067648347)
 (.leaf 53270071049214351104495141410496242731055429892105495467110525298331051093277104789979610462575231041958664104226189910452735541045245691))
 (.node 1 (.leaf 53282091032278605101259368710093314811011237652100771177310075375401007861415104954322610517076531028149388101958109010172262531015099259)
 (.leaf 53290061058473475104493928910474568231062111086107654116310678406161056035855104016529210327224231033739234105137234910567092961050595316))))
 (.node 4 (.node 2 (.node 1 (.leaf 53297051057617196106746444310675435511068016012105952295010530047251045609140103789955910335522561031903105103263136710514639311061070318)
 (.leaf 53317101055022978103132868710297719961038030532104261436010493306771059151582107010673510692598181057059072104884795610411762751034301009))
 (.node 1 (.leaf 53320071042182835103602821310395187751049830273104953557110487083471042785039104160393010335941071036077508104096436510369095231037588126)
 (.leaf 53330101023669307101508657810106813401016371475101615101410088348461000989568102136501310389735441035771502102248869410186968611017820848)))
 (.node 2 (.node 1 (.leaf 53336061048634395103302328510336812801051455573106882416110572958311044157959103386149010254602901025852280102951179410347004421040058153)
 (.leaf 53361071034268494102026639110186861841024655748104148823610554251801042113120101983499810133987771013618198102033568710228108361020695546))
 (.node 1 (.leaf 53386101035971171101620655810114484561010216971102443874810421197991044988238104485712510453492471043927013103208508610231717491019345944)
 (.leaf 53394051055482349106158196110623361941067343501106326941510546918991039678180102120408310096094701012529331103157543310495123791062289389)))))
 (.node 8 (.node 4 (.node 2 (.node 1 (.leaf 53395051057058627106426234710641899501067515825106469372210514915021025836581098189168910079411891024365918104145460910553327701064779679)
 (.leaf 53409051058928190106661140210665189461067378115106230983610573455681052945077104869295610448922151049257833105226819510529535481060205915))
 (.node 1 (.leaf 53410051039505658105243502510511124381049065978104088199810266310241003556261098109163409829821170987898179100323441110335126371046128896)
 (.leaf 53429111057433187104145090510402423631044192153104793496910524985361059100616106872664910687867731060580097105812488810518197661045447425)))
 (.node 2 (.node 1 (.leaf 53432051066698260107417478910758905931077307364107142287110658170141060813952105617299610520926461049368686105146248210545297771066040179)
 (.leaf 53460061058575013105182214110625058401073928038107439170410661653161052461805100683121309221823660989333351103162473910333130841043028700))
 (.node 1 (.leaf 53461111044607212103196822910275157761032236555103126821110408019021046205291105266630510540842641054003842105009359410401866361035068134)
 (.leaf 53478041035584521104706691110451762151047507086103543084610256437231012671400102171868210246893461019944954102612357310280688951037651479))))
 (.node 4 (.node 2 (.node 1 (.leaf 53501051027546794104025944010449962361040505026103709629909862806140941658362093536456209307958490923873162092937428409318308620997941094)
 (.leaf 53511111062130109104160982110393167801047078099105689660410626945991065963651107341078410714665981070855408106328356510524016131045496754))
 (.node 1 (.leaf 53533051061072884107153567410730049171076467004106616338110414180820983811672092422267609449020770960308256097524685110462813221066877812)
 (.leaf 53545061055931334106139810510612729041060612619105891629110572977691053852703105025721910453789211042646640104564765810524073091058875218)))
 (.node 2 (.node 1 (.leaf 53560101065487253104273192410413476661050530793105908717310668829351071125153107489250310746667851073897014106495966910523455691045930772)
 (.leaf 53592111066381747105278033410525296341058100797106359296710689159411072772874107543834810705148541069242778106746901210613778631055536908))
 (.node 1 (.leaf 53607091063802706105271919910533657921058954893106461642410674496251071958118107155710810660714091063784941106206050910590009061052131472)
 (.leaf 53608081075659068106593036510700961761077979990108250277410825954001086603466108090000410675601831068437701106641344110648647061063234956))))))
 (.node 16 (.node 8 (.node 4 (.node 2 (.node 1 (.leaf 53618011020468768101915590310186282311014605395101100389610092322091028089372102368435110171638291016420273102775590810196845121024600407)
 (.leaf 53640081068549392106282398610655486251068735955107406072110754462871075667225106946966410676479711065221782106591543410639775231058867973))
 (.node 1 (.leaf 53671021040805132104215404010370015281029215491101696475210135548541020989081104712800810569760031052328341103121285910193225211032387592)
 (.leaf 53681091061352791105119218310505515971052708439106022401210678599001070485624106811170510644762781060023710106122576910571344461050278279)))
 (.node 2 (.node 1 (.leaf 53707021048362108104949883310447746981041809139103617710510335748371031725178104053146810522092581058760047105293469410510266761050599027)
 (.leaf 53710111064760533104868207210459071841044959654104886270010628593311074797438107562026010722406411069234202106570265510571205131049331043))
 (.node 1 (.leaf 53720091040750528102759840410390492441035765611101843629510208697021025575276105915364710570090741033070367100799008910095555571023809532)
 (.leaf 53724021037353763103843425810297907301022858465101455448410102983001012541465104332648910517527151049417815103797622110238554541033714151))))
 (.node 4 (.node 2 (.node 1 (.leaf 53732101058780832103354446310246278261014319487100664229610123330401023988283107057611110783500451072420017105070424710406717321038050641)
 (.leaf 53734101059418430102480398210026204460958819035000000000009819637041008313020107199085610804553331073320572104667884310321674871033275145))
 (.node 1 (.leaf 53737111033495698101903929410142192071006473384101140147510221304831040226657104029762510369075271050726472103586770410235777651019142860)
 (.leaf 53752101061437118104370806710401642981041614954103578501110573893471070151482107346350710733579631067575926106069915310543621081047223524)))
 (.node 2 (.node 1 (.leaf 53754091077606197106737604910707213781077500880108346538410863877151085676835107968197710789717111075042621107162424710670439841065331624)
 (.leaf 53775101061819658104232487910368126571029778343102005877610167469701048680159107586617610798083041072789060105723651510496574561046983233))
 (.node 1 (.leaf 53940101055663421103650272210322548131029690950102554557010248486151040895607106585154310733787401068232941105419561110446639021040966195)
 (.leaf 53949101053322565102910912210246683561023468891102333572710249715181041442530106649875510732810901064448027104384032310353925261032717781)))))
 (.node 8 (.node 4 (.node 2 (.node 1 (.leaf 53951111077858743106400722010589675541057875594106276156810759116051082296957108369815610868191391086143836108461882810764888101069584149)
 (.leaf 53992111065370608105280473010488260871045897884104219317210447738661055168589106954113310807448921077189797106741093610594746371056976875))
 (.node 1 (.leaf 54043121062121356105245656210508722521053515318106296483610693658881063513032105948929310581261711061468314106833938910683462231059982297)
 (.leaf 54101061068387765106728874910667883261070916186107148450910713132571066434747106364563610607930391061826065107002099910739371471071111741)))
 (.node 2 (.node 1 (.leaf 54374041043789304105310342410536564371049621374104131042210348447141031092883102844073110259837621024062541102448779810403266871057013836)
 (.leaf 54420051064737929107423769410705019561071719247106613004110586610581054005293105073109010473517901043262431104661320410656089991073703599))
 (.node 1 (.leaf 54513041062632374107141161110700587541067851449106218584710598177841061284257105571872710520940741054588532105604975610578023571064759501)
 (.leaf 54521071066902860107254143010724379111069652683106474918310663760181068733713106571482210623714161063453437106363156710617826531066000577))))
 (.node 4 (.node 2 (.node 1 (.leaf 54537061031214305104052409410369071671032493430103485649310406284131025666283102350103810133961811007189808101044112910082920151036075348)
 (.leaf 54584111076511341107243038510734967151071648955107152525210763564191078316601108222911510809896711079835588108031510910753475591071484267))
 (.node 1 (.leaf 54590051045376698105598130910557784911058285320104796614210388221081034399173103366753410303643311031975065103357324610319472701041161726)
 (.leaf 54642121042860727103483087410345020141031600800103233657710369688001046620479105019369910482710911047589492104630147010469458111041151475)))
 (.node 2 (.node 1 (.leaf 54679111041319864103630900410335706551034976452103574941510351547481040423960104912817410483781571046263634104348270710402739161037786664)
 (.leaf 55005011050573119105043742210488264531048981070104775891810501316121051325211105192702310517799181051288068105167269610512191431051121349))
 (.node 1 (.leaf 55062091053917834104497290810419601131041428770104206087110621996691066064878105744246710556471531053444975105368373810511405871048790700)
 (.leaf 55134011055717094105548268310533428911053996227105438437110570747451057073867105712890910565311461055537937105594627110556118351056110545)))))))
 (.node 32 (.node 16 (.node 8 (.node 4 (.node 2 (.node 1 (.leaf 55211011059540494105873593310571934831057701378105868638810611755961060184441106003093510601031281060199973106079183710600878781059594961)
 (.leaf 55249011054184913105404142210523453191053198207105319314910552981421055024491105532397310549485301054152881105443450810540007231054257610))
 (.node 1 (.leaf 55431081066597235104993773410504461881057072705106795713510777159401076573094107146532210663646241065268113106342008310595129091052370891)
 (.leaf 55477041051126419105301204510513363961051947315105043559210499728741049542114105000250310500337721050543966105166188010521498861052878685)))
 (.node 2 (.node 1 (.leaf 55509111064898288105849250910553727001054994329105856918710730773241069332862106716947810664622821066223547106634566110636715251060795103)
 (.leaf 55535081062664621105073169710501562851056741337106489778610735600941073300045106621036510615800371060787155105866751310568960531052574799))
 (.node 1 (.leaf 55563081066398284106026194110575555771058670247106687940410774596411070564422106713310010654514571063227814106488805010657401171062943981)
 (.leaf 55566101058197107105252194510525562661056421201105878680310590768901062594233106314974510601344111059487503105635922610550180211055607089))))
 (.node 4 (.node 2 (.node 1 (.leaf 55603091067470515106259633510592982071060226336106903265510764718871070920120106908877410675651431066169121106654576810664077161065624671)
 (.leaf 55669061033077647101203099110082093321026363559105281263210507705561029878995100600371710160616891004482133100256426510037874051007538579))
 (.node 1 (.leaf 55709051054908976106044005010641509221069061931106441495710529594391034169048100911761909986178601007561954102231268710442656661057711401)
 (.leaf 55718051050125118105791982110605096081062371956105765446310500246631040378946102455235110083333761007813763101889570010357412101051354199)))
 (.node 2 (.node 1 (.leaf 55733041032006344104773715310447308151035541444102903887610201319111008998519100061588409877993810984126246099091573910057728101041393313)
 (.leaf 55754071065275410106421366010668437461069118647106758830910681464371065764008105971928410546068281057736198106326793810658643921066701776))
 (.node 1 (.leaf 55759101054319047103540812010349551451046144218105009969810514008651057153259106516171810668086501058734004105284410910485545771040484572)
 (.leaf 55797051060018743106720817710673353371068455325106430766110586820341054808656105012809110470545881050530766105347414310538317221061109035)))))
 (.node 8 (.node 4 (.node 2 (.node 1 (.leaf 55810061033938288103085622610328307961041168400104805666610427640781028639958101839002410160899941017253900102386781510303760161032355689)
 (.leaf 55842010000000000000000000000000000000000000000000000000000000000000000000000000000000000000000000000000000000000000000000000000000000000))
 (.node 1 (.leaf 55846041029719532104224074410403898901036473574102888651310172155461007427541101487855910164841681003687022102678413910242384861033846136)
 (.leaf 55853091066461404106198335310658994631074690541107705458310733069671058429879106414588910677375031058870151105322298310543530851057518205)))
 (.node 2 (.node 1 (.leaf 55855111060771051103594444710336735761043312052105596903110649603161067440223106994432810705781321068662483106171411610459345101040326507)
 (.leaf 55867051062055331107015815010705375971072298122106638359610597632611054682701105425299710504263021046795485104915973910533307851061895693))
 (.node 1 (.leaf 55870051064572680107502181410753116351078608476106803477810444696261003512874099021613410030672581013422128102040304410540666001070600528)
 (.leaf 55872091041779347104596402810500413001053869276104857640810281203741012712917104049508710437429531026659470102811273410267315621039055515))))
 (.node 4 (.node 2 (.node 1 (.leaf 55889061057224235106370778010637035411062984285106091915410583203611053544424105031687710433555161040810143104289082010511975171060436346)
 (.leaf 55924111067530391105441790810543058241059471364106542422010703765671074162634107665537010724179201070591451106860558310629180101057111254))
 (.node 1 (.leaf 55968111024942691101224032110058971281004844972101168567510172892971031238651103904191310245587681036873876102508584510132410501017090053)
 (.leaf 55978111068582121105516924210523196541053114686106047854110709326421078071251107784698910754076511072984936106901868510619571751056919478)))
 (.node 2 (.node 1 (.leaf 55980021040888133104231585410373708651029588497101726973110138183531020316608104643097110572045281052792195103108926810177601721031645118)
 (.leaf 55981051040319073104204774610412359821041920513104043479310380319461036594456103886649810385832281038893966104060500410405733891041057927))
 (.node 1 (.leaf 55997091078310966106877694010742811371082243476108465645510860584631085612967107659170010791568541075953901107179544010681833601066530984)
 (.leaf 55998081081645099106688529710728720181083551986108833260510908562641092910934108321594010773515031074607439106975231010666396301065623037))))))
 (.node 16 (.node 8 (.node 4 (.node 2 (.node 1 (.leaf 56020101060293090102920853210158883231004760653099792013209948614441009613263107276560610814658091074286657104923038610335768061034930432)
 (.leaf 56127111041704402096633849909301035970938596453093690070209719073271026759611105128327410597655421055497632104798175810231863490978933587))
 (.node 1 (.leaf 56128111065028926104818314010447325601043061707104058351710434244001068684486107618963910735878551075926538107064500010554162101049961085)
 (.leaf 56138121054034093104646689110410354751038074137103465775210411897541046131286104702885010600921181067416103106599240410572286911050185967)))
 (.node 2 (.node 1 (.leaf 56140111063165404104973882010446910771042424145103868795910366508651062203232106909750410704838391076170316107396009810598766331054037117)
 (.leaf 56148111066336050101316268109481512570000000000094297021210080431151059813427108323883610817108141071561424107181085710582073291045259784))
 (.node 1 (.leaf 56163101057823577101963799609802624770845968954090028915509332030291037925613107250218010774443801063302382105537618410491543301041760748)
 (.leaf 56165121048540154103639868110292475901028655583103187540310353752821045458283104674990210519861491062859135105876952810487544471041771898))))
 (.node 4 (.node 2 (.node 1 (.leaf 56252111069649726105370719410495928801049599663105596217610656076891070285159107929335210826729231077334807107393099910657510721058015634)
 (.leaf 56480041077321172108866916510848556741084174100107705161410693847111065683647106200675910583967251054345332105991253610774030311086708826))
 (.node 1 (.leaf 56554041075850179108838526410834498531083134497107468050010687308001066874091106174026910586112301060550511106023448410714533241083420655)
 (.leaf 56574051063815005107276290810717148991068821113106393078910604238251062573205105741597810531431341054917419105635121410580347101065210563)))
 (.node 2 (.node 1 (.leaf 56615041036508459105126221710486258631048009362102872903810224556551019483223101779312210154734461013915000102018140110259613501040232328)
 (.leaf 56626111073189356107314888210718994741071533066106971693510735992871072938203107540009810737588011074189449107536954610719767361070991200))
 (.node 1 (.leaf 56631041037952681104248793610502178041043853950103568618010294932681025973877102150872710200672521018596806103354654510391254041045794632)
 (.leaf 56636111077428035107359055410742404081072804990107268110410772721271079468601108287608810822001461081038993108165857710762406481072606985)))))
 (.node 8 (.node 4 (.node 2 (.node 1 (.leaf 56675121042386614103248674510346187911031184613103196132110363521281046617408105027435910482477171047648478104513570510450418861039915877)
 (.leaf 56941111055590485105156597210499232871050253384104917395110495654141065120062106148725310584641731057048506105572459710524443781052053280))
 (.node 1 (.leaf 57018111058441650104969654610473714291047154042105153944810688495851067112445106032580610590690261058151588105846525910565006421052777968)
 (.leaf 57266071032647458101224972510079084101007234115105147262410456377971033608223102788156610246660101022356812102053691910177174221015903761)))
 (.node 2 (.node 1 (.leaf 57293061040786119101684280510124410481018698119106483355310467671071035093142103213102010296066761026201775102660615110265667871020649994)
 (.leaf 57318021069302721106954277510673612751067367127106609952610666530701070001819107127746810709587241070207023107098018810706101961070573459))
 (.node 1 (.leaf 57323041060279915106263458910607253541061206455105959141510590381301058219979105843532010583777051059107688106111166610620055761062905102)
 (.leaf 57391071054734139105019877210517802451060352345106654244310676759531059262897104273347310240803241027320758104054990710444678001047851535))))
 (.node 4 (.node 2 (.node 1 (.leaf 57467101057670486103467836810307185601038027704105869248510604954381057358176106560423510718284341064657014105086138010459433411040350376)
 (.leaf 57469071059864694105643185810603727031065987860106590883510641855791061281368105941599610569439101055456894105524304910570752081056991452))
 (.node 1 (.leaf 57477061044262192104344091910421085121051015625105716379410534321631042907004102469361910111064991022201388103732733610422424931043232176)
 (.leaf 57495041035605438105078022210489527551040974650103533503010268778441013002795099466559509821347260992168163100026904810177084091045075176)))
 (.node 2 (.node 1 (.leaf 57509071066741886106644961110688544751071282372106938539810699462711066912056106114198710564414181059047525106509189010676654971068708311)
 (.leaf 57528061050450567104450294810538504971068015107106733982710523044121027180796095943512800000000000886465194091592271710179920261035759735))
 (.node 1 (.leaf 57532071061281164106024673010614919561066680789106379794810642766901063186749105786460110518580691056290443105919759710633304561062934012)
 (.leaf 57538051070047379107888698610780764251078695663107412112510688993541065594001105904860610550749061054343401105477826510609717661074029046))))))))
 (.node 64 (.node 32 (.node 16 (.node 8 (.node 4 (.node 2 (.node 1 (.leaf 57545071040062661102818681310340904741047174029105055120710564014851045743212101686479009984811600999476722101519371110257100621027887825)
 (.leaf 57547051073947115108154959710826121831083834426107848732110720807571067670247106314038610591459171055888053105835082210610833131074496010))
 (.node 1 (.leaf 57557051032032247104270029310449206791043440863104038807210251383790979209906000000000000000000000000000000100415306810220133741025111125)
 (.leaf 57567051060217251106669368610693697941076011936106909505210460103570999334592093466821310007478311016211509102618748510568898201064045898)))
 (.node 2 (.node 1 (.leaf 57580051066959025107560850610748138481076310513107217287710645200991059281569105653610010536760441049977063105480242810583418241068574649)
 (.leaf 57581051067899615107621785410756299301076885862107056683210664584261062539930105814787510571171211054679425105956787210615836541068079424))
 (.node 1 (.leaf 57582051056475756106135696210661728591073908223106426773710426525420995750434000000000009244649010952818456100795982510485798131058077927)
 (.leaf 57591111070579721104992793610483814041056013016106370693010714808881073477304108183616510779732901079538490107455545710639880571054729141))))
 (.node 4 (.node 2 (.node 1 (.leaf 57594051065447643107592068510757938571078939193106838801310456617361007277809099652972110074537091015684959102143399610554043081072067703)
 (.leaf 57599031030271112103281045710330103891025243037102234536110269491941029098937102894761610269081641037692409103378453510277576271028070551))
 (.node 1 (.leaf 57651111040623887102804921710286042921023336900102451646710235547131034329583104843456410520585661055719696104378110910161846611025321226)
 (.leaf 57659111033989936103189549110324520931028379433102714657510264669921041239275103786456210303629221035161935104115442610328774371033439560)))
 (.node 2 (.node 1 (.leaf 57745111069765303105336623610492553321049606100105236807110648625221074801538108152496910817739461076583861107082603110663782411057947156)
 (.leaf 57754101076930640106204447910563797191051229849104779546110489634981068170033109033898610929051911088317314107400041310680530631066609281))
 (.node 1 (.leaf 57756121062534033105069515510457938861043508420104025822310403896701055623616106489345310750208231074888991107049935210643700571055869627)
 (.leaf 57796111068229272106018340110568618561050237848104652459810451778421066557852107267281310745023571080438009107885348510677562681063808837)))))
 (.node 8 (.node 4 (.node 2 (.node 1 (.leaf 57807111066719996101405237609417687820864403160090451577909868486381058084298108317248810824044071072996493107390577210583905621045846397)
 (.leaf 57828121044646340102771312410159876251003055197100182229410300972971044945307104435525810544461791050528385105805464610531549191036451937))
 (.node 1 (.leaf 57846111061014809105103263910463227171043873621104091973810408101031045748897106273292410746056521074783855106779675210597452991055087342)
 (.leaf 57848111036854515102852085310248404491023787798102023105110185346491020734887102868031310522079221051575940103986342110336176051031547730)))
 (.node 2 (.node 1 (.leaf 57849121057905431103511589709986388180000000000000000000010008395431032980261106856750410751348061062391529106402362210599908671052445592)
 (.leaf 57853111057909356105142433110485397911046885429104353655410419165931041221569105699894510740900231068091173105884567410560388551053760563))
 (.node 1 (.leaf 57870121050261689104382444110397987281037632918103591910910360371701040544204104725145710581724721063327876105890885210514941261048146286)
 (.leaf 57989111046711017104288136510409493321041817925104540060010495130021049483013104984544010496146901048773999104783911710455941521044469420))))
 (.node 4 (.node 2 (.node 1 (.leaf 58050041078744879109060301010864644531085605477107831918310700600501065938458106212128410590942881057472888106014081610786688611088336576)
 (.leaf 58075041051182263105994094010656912501064239142104965511610419757001038375397103671751310314043991029562924103415012510393261501051009291))
 (.node 1 (.leaf 58085041075211819108858901910827246771079451805107421766910673108561063210168105954499210563769241052102274105483355410724150951085260381)
 (.leaf 58123041066566690107567912510750049971071868468106636185410630872521065012284105923326810553711771056989619105795298410605111101068471900)))
 (.node 2 (.node 1 (.leaf 58213111068984767105991027410597655291061511117106849712010719646961073940412107682617610730266941071490263107036919410663148641061609913)
 (.leaf 58230101063343720104140051910381530941037515666104972232810702274391074112923107548511010685308431066186024106120246710527792841047194416))
 (.node 1 (.leaf 58231101073844574106469079410605923871060213494106186033110737395021080563300108333523510808365311075837302107378266710694169061067415993)
 (.leaf 58360111058341903105133732510486806021047130981105465804410716100091063306756105890072410572709351057118642105846973210567029511053318432))))))
 (.node 16 (.node 8 (.node 4 (.node 2 (.node 1 (.leaf 58526111062278010105716586610543642811054922302105780597010725412711069388755106312713510614803641060586897106236596010605489481059493457)
 (.leaf 58622021071924514107335615310711960871071826527107053250810697594091070040049107171617810719274751072080919107338459110733478581073834118))
 (.node 1 (.leaf 58637021072707779107276041010699195511070049158106846979010694934451073433119107402365510739020471074167177107485285410744158931074047786)
 (.leaf 58638021078219867107888135210770743791077720577107653439310759617221078865557107858229010782675971078724223107961955910792223281079184425)))
 (.node 2 (.node 1 (.leaf 58684081070703599105420505510542767991059926380107120580410823894521082076864107656919010703371321068685166106770910410635265811056755856)
 (.leaf 58698091071435818106594384610646170361067135343107038655510757544531077761468107583824910721147311071002036107058019410700624031067536719))
 (.node 1 (.leaf 58710011070909202107044345610680365111068027565106690959310692171461073895735107344488710726791651071708496107265158910720167671071725605)
 (.leaf 58724061060952735106207542210609178331062106286106125765810611943941060448084106058942710602586861059851103106054114110606423851061550396))))
 (.node 4 (.node 2 (.node 1 (.leaf 58734111060924677104522013910409997351039232872105036210910588926021056413652106811381410756546061069915405106421658510549664401049383282)
 (.leaf 58743011065361543106427492010615002681061955237106463521410684402401066666964106611923610653323701064220107106537266610653232031065382492))
 (.node 1 (.leaf 58781051034735528103448969010373500001041217177103763652110340464241033212282103306664910330505361032822728103298015010325536621033370734)
 (.leaf 58800101065058165105041986910459093331049315201105873635210588930151064268945107499222410778138911070678415106355491510590355411054473564)))
 (.node 2 (.node 1 (.leaf 58804071060791942105569396010599180081068932833107473325610758831601063395093103440335100000000000973868899103089862510409097781049082109)
 (.leaf 58805061046214413104181628710444106071053400688105938089810587869291043860998102410098910126885881023741382103514065610395101811040337070))
 (.node 1 (.leaf 58817061059138448106846675810694662281067859269106701415010626136561046611157101426148600000000000982232017102373669410481875101062778655)
 (.leaf 58822101058739047103653175010326723881041072569105875238810612589401058271067106686212710737653631065959532105254695810483863271041901201)))))
 (.node 8 (.node 4 (.node 2 (.node 1 (.leaf 58836051049012653106128403810602460981056213621105117648910468904041033928928101164915809717336040976453977100978132010374195311055823612)
 (.leaf 58837061046770916103486781410420130821055079496106640794310612682051037890067086892394808598589060852038827084817906709452555801001994905))
 (.node 1 (.leaf 58852081069850316104871439410518166951068968474108295679810831453721078073996107083800210594781681051918395106146460910588310891055550694)
 (.leaf 58858101058578660104100033810405205521048895804105246194810558587301060234592106920210710716949011062652484105713438610517665801044619960)))
 (.node 2 (.node 1 (.leaf 58869061072775422107586151310782057961081482207108193182310744176541062340759105878428310567423831053758611105802420410697362391076578281)
 (.leaf 58873071065698019106555928210659780551070369161106719520610673221011066999992105998208010550147501059578191106288016610676862851067344661))
 (.node 1 (.leaf 58877051050948914105274823410664228711071352122105783678610282993371012533873000000000008757901330950062471098515968109984389421010487440)
 (.leaf 58885051076840277108484593510857000201087062294108236111510751353231070823349106665580810626792961059087224106188310010656083331077834470))))
 (.node 4 (.node 2 (.node 1 (.leaf 58906051068377365107635866610759645981077295457107149805210670375611063365839105888797210577726051056194046106026625010621098881068430205)
 (.leaf 58916051040825772104172056610482611381050669037105086598710392082291016038745100949980910067220851002392747102885909710403384901048647542))
 (.node 1 (.leaf 58937071060493079106276809710643974381065874047106259952810634762531062146720105413587310502283101048777005105512872710609668371065103028)
 (.leaf 58958021051952170105519738410499268051041755922102856849910255212421028956794106487896310657973351054240976104796699710420137871051706997)))
 (.node 2 (.node 1 (.leaf 58979111074195297106059188610584237601059319629106715070510761692101083459334108287069210796105471076902297107502181010679217491062167105)
 (.leaf 58988111036010411103086080910261006861020828447102118843810307276781040730576104152896210402759161050401101103834084410263731611028948262))
 (.node 1 (.leaf 59019091079339668106680880110672024991070520222107697722710857909971090855154108758556610833030911077428797107460707310717106971066734259)
 (.leaf 59029111061384793104741797010427715081042134414104221154310503009431063407632107090618310733558721070431283106540549710602334371051874972)))))))
 (.node 32 (.node 16 (.node 8 (.node 4 (.node 2 (.node 1 (.leaf 59049021041200150104174047310405408321041170255104050784810403755951039347047104087892010414235441041972177104235997010418343701041830599)
 (.leaf 59073111077028352106164532810569484051054187305105228492810665954861082439804108702419910901971081085628158107924959810722528091065918861))
 (.node 1 (.leaf 59101111046918743103975265310356251611034443006103195877410292233631028359626104132520910630346371060267674104799028710426522681041111226)
 (.leaf 59105111061403794105256856110485512991045682628104183049010393977341050013112106663824110750084561073767551106671849710597819281056838089)))
 (.node 2 (.node 1 (.leaf 59118111061987440105513692510511905931050020359104697447110462242661047324427106079413710777505591073963227106406569510594666351057710847)
 (.leaf 59144121061163678105482962310501426341048866545104648797210464544761051406119105983641310689555461073979939107033178510635065411058630162))
 (.node 1 (.leaf 59241051050162213105119069710506848051053112448105327555610501581301049693747105007475410497859341048874688104790674110455617771049785535)
 (.leaf 59272041079074387109103498510871013091086042006107872905010695964431065400592106183189110598352371058481358105974810710777164861088764499))))
 (.node 4 (.node 2 (.node 1 (.leaf 59307051082789982109378605610900556681089646019108312928010759480241071496523106806096310650901191061143286106413692510809352771091423110)
 (.leaf 59338071081036935108535021710843473451082496076107797708610806491751082663185108019451210767897561078418641107920091210774933031080527918))
 (.node 1 (.leaf 59362111077293666107650492410752668991074668510107465990210792699111078734617108085037910776472861078553186108063051210761543971074583471)
 (.leaf 59372111085013414108070754410813427241079703066108096058510859921311087893829109046057710889608001087751625108921072310835731161079270253)))
 (.node 2 (.node 1 (.leaf 59407111070502694106213354610617916551064483940106996843810737467421074779065107797293310741841381073065589107207955110676683421063881904)
 (.leaf 59576081063706362105341689210509567971051354403105867929510788423221068366449106489528010622198861061034276106265182310605286291057244090))
 (.node 1 (.leaf 59605011059942351105984512710583466521058959254105934561010603829491060466213106083629710605863391059961423106028672410599520281060339590)
 (.leaf 59773021081540400108237431810803120421081111919107962244910786404321081663211108160840910813713161082192513108278878410825476171082500360)))))
 (.node 8 (.node 4 (.node 2 (.node 1 (.leaf 59849081060103329105940067610605263221064979695106648613910626858921060578255106028449710576553591054151524105445221810573066011058937108)
 (.leaf 59877081074379739107042309310679514351070057269107722817210834437941076248318107465769910729171501070837105107204042110726314741072538505))
 (.node 1 (.leaf 59886071049979502104186921910450185481053595127106398997510681761631051203819101242475409758344500993981155100683703210291363191036075580)
 (.leaf 59905061025239338102572031910347097831040951498103602836210306518131021146759099638721209053164070919914114096128860709829675601011384060)))
 (.node 2 (.node 1 (.leaf 59931071027878299102016687110191277441034331979104424389210368540101031531195101952097010109404821008742393101469970310181669341014731240)
 (.leaf 59937101031225121101899563210161842211018014351102375001410161556941014931819103564356210488403561042265304102554506910205768801020795495))
 (.node 1 (.leaf 59947071035035996102877473110338639311047694108104256064810389321661036036955103407152610293929271028872050102417938410265343941026239109)
 (.leaf 59951061051361295103712025210439897131058641234107375709010648308971038407344096250424300000000000000000000000000000009574755841021537097))))
 (.node 4 (.node 2 (.node 1 (.leaf 59953071037959360103345956110333140171039856865104765662210569539261040725991100542230009701834591009822073102213031310290123811031441513)
 (.leaf 59954081070251211105185343810560801231070213604108310559610832233901078095643107072562310595981401052633721106158501910591958501057048488))
 (.node 1 (.leaf 60004031028505805103151925710328831581027909903102411607710240949631025182236102123225410194354191033350934103378355810314282751029435989)
 (.leaf 60011111073938380105193009510496344391056893491106678688110747703961077676324108394673710834385941082362330107441969210625585611056403919)))
 (.node 2 (.node 1 (.leaf 60017051070653230107821886210793909001080766290107527602610683627521063518590106416756610593618681056690101105808709410600931991070051661)
 (.leaf 60071111070595082105846413110546915301054194626105502311910665603651077187097108008216710798690431076944486107270240110676302721061467542))
 (.node 1 (.leaf 60080101068172366104581583310348676261022937884100366576809996363451033948475108093105210872787881081446440106364811710532176861051130218)
 (.leaf 60087111067880271106300668610597072211058615690105543559310529861931061882898107731882910701854321078477736107436833510666524951065367350))))))
 (.node 16 (.node 8 (.node 4 (.node 2 (.node 1 (.leaf 60091101077592933106052181110569097591057710573106258328910732336281083176449109020503010897006761083910482107723272410727138321064876311)
 (.leaf 60272051084612405109489505310932552081092191369108635485510782680841074268380107177691910696577531068027052106836033710796222461091826847))
 (.node 1 (.leaf 60275041051512955105953844210624433161059678145105080111710467386441043066403104262464310400492791035222138103355882010421438641058621047)
 (.leaf 60290041065554106107706131010736668131067031551106348747210558103061050796996104831030810441311871040676944104171672210660358131077277498)))
 (.node 2 (.node 1 (.leaf 60303051083199441109438625410906798101090342661108358895010766141171072439606106877836910657542481061886687106454758810811804941091734968)
 (.leaf 60314041078072410109092619410859607751084949590107772713310718561011069347124106523425910611880581062474122106317189510737704301084604140))
 (.node 1 (.leaf 60317061061889211107496130410743615431071060059106345098010636920411055398578104868191010471800571045851361103888634010387725761047978060)
 (.leaf 60320051069058851107825903010776997031074905568106925489110663853831067242311106245287210583652121058569415105984266710625211501071061797))))
 (.node 4 (.node 2 (.node 1 (.leaf 60329071081662739108566385710847450641083015693107866930710809415041083037121108121834010773627361078700541107985092010780371571080770623)
 (.leaf 60348111081829102108071433110790815861077938995107867685710836336631083154988108411993510818319711082577737108435879410805607421078106675))
 (.node 1 (.leaf 60378051055892401105614475510652708181065548999105802370810515064581049503511104703977510461831041044509293105520769710549115041054520013)
 (.leaf 60383111076152551106909544110710744561071500632107530488110781330051078963347108294664810788791571078431024107734404810744915601070403631)))
 (.node 2 (.node 1 (.leaf 60473011056665340105604586610531622201053037374105174345710553624041057414809105778096910579687571057915590105835845710578414621057412465)
 (.leaf 60485081067973082103994300110354958161035038053104123307110664069181091575900107529473610626235581064188597105966406310463371791042410803))
 (.node 1 (.leaf 60633081068440634106704866410657425061068073383107406178410725676671069308455106861498710680792321066946034106705165510665885831066884700)
 (.leaf 60694121069078441106701573310643168271063400200106093102210702123801074218947107134641810707330151071370337107198714110703737861068852569)))))
 (.node 8 (.node 4 (.node 2 (.node 1 (.leaf 60708121071371225107019900610680965971068280924106724079310725811691075030595107417533810728165261071527325107202852110715046511071250968)
 (.leaf 60720041065664256106752601110662893801066800153106558759010646633051063080275106311239810626803061063447046106581377610665910771067488385))
 (.node 1 (.leaf 60731121076076018107408715510710983141071152557107097070110777598071083113047107832957310767554701075988320107716463610761778931075330175)
 (.leaf 60744071072354210107101585810714548961074559612107576769510778082581076693999107024589410637394611065434122106784383610707369141072280823)))
 (.node 2 (.node 1 (.leaf 60745111081815877107476790610713209561071703697107745517210917015931087117661108330161110818576331080991647108235421010812094771077461005)
 (.leaf 60783081066002399106222135910615964481063771615107048306010739926771073693479106703302810595397631058609691105898879010619055461063692448))
 (.node 1 (.leaf 60790061059395722105549765010556836711064650587107141475710678998881058832436104156347910391111491051054522105743924110583606901057422220)
 (.leaf 60805071057554782104913685710491117371058612323107181558710685000151059484677104079701210317344391044671206105112009510539810691052617985))))
 (.node 4 (.node 2 (.node 1 (.leaf 60819061044705296104847927710537776631061006146105466001810455020881032066829100685041409706674090981139879100226799710250562711042591669)
 (.leaf 60823071038371818103217742110371198601049684565104493021210422282981039708271103778364610329000151033207502102820014410309180161029933494))
 (.node 1 (.leaf 60839051075204892108353273310833268661083551392107874243210744682701069840734106493727210599437751059394853105922174310667329891079077360)
 (.leaf 60844061035640634103291245310346849201040922067104850503310446972161033797376102826907410253943971021529581102338512710314089021033639494)))
 (.node 2 (.node 1 (.leaf 60850051078976021108695459810878803711089387834108391274710768906741073172503106846598110652221521061364192106492374110676088121080330653)
 (.leaf 60858071027854395102994660410319899661029122799102368480810275334031029441249102647257410272409251026085852102752693510279992961027017152))
 (.node 1 (.leaf 60860101020004877103054471610243625851018511096100956605510074804071021087202101100714810166850241024021877101754421410186797481023364260)
 (.leaf 60865051060308999106692110910706051781076174775106697868110421314951031176226104642124010439694101040351632103652877110489832941060396362)))))))))))
 (.node 128 (.node 64 (.node 32 (.node 16 (.node 8 (.node 4 (.node 2 (.node 1 (.leaf 60866051059165418106022191010714372761078504118106944376410501464331004723393096696168409471377470958302384100922297910255786491043735170)
 (.leaf 60896021050887391105570033910489710901038102914101602293310162352321017094334105993539710666861961055867487104560847810396770361050519891))
 (.node 1 (.leaf 60900111075431139106253050610600906261061340501106935216610779057151084715379108399043710811744191078331292107648228710696845381064166951)
 (.leaf 60934101058017139103193070810188345321016229336101998518310184919211040934363106898415510757435731072213124105562093610426776271038943245)))
 (.node 2 (.node 1 (.leaf 60948111062533070102775450910196949441016468342101434269710088018211054603827107272951010802734441075840036106662566110478005411038355983)
 (.leaf 60994111091394623108315551310773056381076380594107710787810891868911096404904109979973510996260091095784203109203418910906043271087693970))
 (.node 1 (.leaf 61000121058950851105275027610487577971047096283104525887010468586591052785031105716801510657114481071078165106788443310606008641057077065)
 (.leaf 61057061065708797106395107010698756511073293678107315172810676715051063784570106207666910600721201058819165105861273910579966151060887328))))
 (.node 4 (.node 2 (.node 1 (.leaf 61110041079180965109173712910870600041085845335107883808010729654891070160710106588100110620641251063195425106464638310747367091085588470)
 (.leaf 61115051070726106108008058010795945061076465310107113324010677925841068638991106425898610595977731059514100106109574010636083431072672628))
 (.node 1 (.leaf 61133041053429400104996578810661840651061426044105298778310531281481051881699105128181910497876821048102712104561446410443088551046004323)
 (.leaf 61181111057216907104483094810417456701041789914104138649910554134401065115741106709776510628342621062425772105854103010526225301048870791)))
 (.node 2 (.node 1 (.leaf 61182101074521782106400238310601693901060447682106214268710743470011082420226108474545010823149391076533881107409149810696736781067226022)
 (.leaf 61394071069673613107055498410696983371071138962107074045410709874491069985855106940195010684038261067738448106844300110688324461070157644))
 (.node 1 (.leaf 61405101076918302106452069010613348601065458842107763004410872968681084252716108246242410789660281077895052107654140510712387641067021026)
 (.leaf 61419061066040566105014769410454089261049099460108052197510764437201065878377106499060010629523971061621778106563028910622981811054646142)))))
 (.node 8 (.node 4 (.node 2 (.node 1 (.leaf 61435101068924882105584888410524639971051935485106537292110786406991070819614107572054010771091281075265847106763105510594781761057724378)
 (.leaf 61472101074515260105283510410489538781047697012106966957810792436701078471863108262497010854785881082267785107429828910627838851057070949))
 (.node 1 (.leaf 61473081075086047105913520410592877081064903360107433015610852567841086027476108197732810746004301073652985107188625910687734151061518004)
 (.leaf 61489111083137715107583398210728891741073678745107968366610934041981088979487108464334110830366851082435419108345304410827129611079008979)))
 (.node 2 (.node 1 (.leaf 61546101068279427104864395210437895941053807671106588241410659353611065030232107811370110844679981074493588106313636210592986631053372048)
 (.leaf 61549051057668711106898718110680627211064347564106072052410569955811043043236102027535309915130901000072650102609740410500278251065747877))
 (.node 1 (.leaf 61554061055245606104117506710488922141065316994107618633910668465341042639663095818944009395552970983025259099905828710167739141026125506)
 (.leaf 61559061071281708106670644710699359571081251089108722506710767315861062600253105197340210441298761044871356105448055710665685351071259854))))
 (.node 4 (.node 2 (.node 1 (.leaf 61573061058745396104997477210590210321075140786107639793510631149761040379633100397738509781529150975375848101020848010414152401047621701)
 (.leaf 61591111075999587105662799210541508961061922664106862888010762257361078742718108600031310834415491084511462108076736210702060601060714169))
 (.node 1 (.leaf 61593021025533511103215777110254777301020082016101264709210177329461029515593101698882510222550891036905052102405194810227617381025770779)
 (.leaf 61594051076020494108421714510844164051086300432108260696110742357121068283107106620726310625716911059094249106149504010631995141076036058)))
 (.node 2 (.node 1 (.leaf 61602041035342893103770527610409901941037406782103499286010305298671032527315102520928510218955621035714892103858229310391201931039377924)
 (.leaf 61620091084771691107498030910755919901078765448108625101810913219521093696913109145284210861726121082874543108343353010800143411074280351))
 (.node 1 (.leaf 61622111076075857106361630810611669881062332945107020594910784043641085243134108468527110819925671079142074107738796210709515831065578327)
 (.leaf 61649101082161961106709406510634882671065389808106655548710766826791087664676109187247710927061761089863030108078033310752742321069455809))))))
 (.node 16 (.node 8 (.node 4 (.node 2 (.node 1 (.leaf 61653101051888662104846464010446465301044735225104373501710435873091046800721106447733110619358161057876469104947578410449511901045476871)
 (.leaf 61668111075188205106021007310579732921054870419105112950710499517391071049400108640719510846604611087090054108293375410682221801062251290))
 (.node 1 (.leaf 61784061068027756107068499810758799381078076180107395281110684815191065952002106395252910612443781059252939105868217010576294491060363586)
 (.leaf 61795051087870366109972602310948866251094976541108903235810826224571077693662107472724110708446641067283585106803121610844544171095606711)))
 (.node 2 (.node 1 (.leaf 61800041081325443109317496510892632651087693385108082247610745215331071955376106714259410639258511064928064106650123410763459891087558859)
 (.leaf 61812081082111277108572048810850144671083420737107928809410811151751083266312108214640210778697291078839361108043242110784752771080830615))
 (.node 1 (.leaf 61817051049935773104431691110693466941057923650105003415610462307271043156141104144541710393035661035906630103385982610321961111035517308)
 (.leaf 61997111065421505106227765210601246011060104350105851013810583372741071973671106771947410683082521067791548106651491310649665741063707304))))
 (.node 4 (.node 2 (.node 1 (.leaf 62001071070837414107177907710699683211070803924107080552210725253721071303645107061113710698194251069447866107035978710707786361071846254)
 (.leaf 62038071062913117105958515410574118061061592932107260337710671812201063688833106249062710605579421059075285106009386210613635721060234630))
 (.node 1 (.leaf 62075011074143059107227922410689236091068226524106637251110743919031077631381107560281310751168601075490805107628607310753976811074414615)
 (.leaf 62103081070804113106275755610614659061065539668107157281210796329281080803231107490095810680300411067745770106749948310670188261065304883)))
 (.node 2 (.node 1 (.leaf 62120081061688386106137206510625324061066447523106784459810647216151061716157106181265410588966031055729112105550946510581431021060604329)
 (.leaf 62154071062597046105737056910579172531065012915107567932910751521361064890712103680031910252786221043985346105478240610612386791060119307))
 (.node 1 (.leaf 62159091044275916101526381210118791721012644796102152608110243697571038945997106161582910640761011044125540103210874810252369571018939494)
 (.leaf 62175041051018267106622650610634191361057631441104985456610357753681005196362096853035509421680580960584896102294368510406024501061919426)))))
 (.node 8 (.node 4 (.node 2 (.node 1 (.leaf 62185051081974751109013991810906234121091387735108578632610791894841074962828107059624710668647441064220390106760747710714110871083694103)
 (.leaf 62199071041135873104249414310453563821044140559104053209210409049211041457026103423036510352289561034387175104096578210419473641043627869))
 (.node 1 (.leaf 62214111074211638105176842310487829681055548084106750387310769094871083081254108325781710808232401082267344107478373010619378231056428298)
 (.leaf 62219091085138061107536504510760213621079395040108672527210915799771094040389109171895310865650511083220807108370242910805279701074681735)))
 (.node 2 (.node 1 (.leaf 62246101057253742105008976110462015701045822559104450269410441627911047756242106796158310693305901066759792105483566110482385071048072333)
 (.leaf 62251111080540537106346108610586662191059649088106548080810752869811084855129109173682310921510221087537090108137365510750044211067058961))
 (.node 1 (.leaf 62257111075420398106056303610581610921055110019105131338610500876331071065055108666393410848651441087520876108323378810684679381062515045)
 (.leaf 62342051078965306108572481310836992671087724680108795742010784444101073858761107004754110666297221062450739106071660510693028051082453629))))
 (.node 4 (.node 2 (.node 1 (.leaf 62359081056387599105084202410524023081062416184106325816210582781941057827216105761159710563633251053478567105135616610491293741049119758)
 (.leaf 62371051072170576108170959010811078231077699505107287233710690310921069968169106563032410607076031060511848106227523410646567721073848141))
 (.node 1 (.leaf 62393051042918103104830432510555744271050608739104378212710352048141032761968102838555610252838601024079481103813298210413886401049002720)
 (.leaf 62586011079202575107795653810754073851075235761107415378810787714791081175900108150019510809830961081507514108242174410811864761079839714)))
 (.node 2 (.node 1 (.leaf 62601061065512129107212922910709620161070959386106862445910655815591061554073105863801010554281451052172115105440468810604495701068283732)
 (.leaf 62653071061882139103712199410372976921058645695107785116410745733111067696505105979817810535000821051664588105248397910503768161043630638))
 (.node 1 (.leaf 62668071033946839102699680710289275141040758064104579109410418007881034938168103169288710229673231025267178102799558210276745781026438808)
 (.leaf 62682051046454047104484545410600430501067112051105681921310234455550953470218089147990809250337630938702468095211262609605938001001731541)))))))
 (.node 32 (.node 16 (.node 8 (.node 4 (.node 2 (.node 1 (.leaf 62683051082350453109056926710908766471091706601108636087110798541171075365528107119106910673370861064905640106789100310717444701084029779)
 (.leaf 62692071034416508103264466310353914591042601822104373643810453568751041789766102203594810044857991007932163100917533310212228671029603022))
 (.node 1 (.leaf 62697111079294037106166131410598085361066769726107257294710789970271082276341108905187510865504931087320969108391403810747898601066192638)
 (.leaf 62698071037845146104015974110423430991041909392103791007110386879981038968445103111225610309505851028806499103558407510380391801041858297)))
 (.node 2 (.node 1 (.leaf 62704101071145145105484343210590803661068408052107183571710750443351074924226108019321410820772031075129253106266088710549032471052227359)
 (.leaf 62705071044178576104651942510495022921046336483104429865410405714091045562794103585440110305231061038711925104598388610471958411049338558))
 (.node 1 (.leaf 62711111081141353106767461810661481181068175975107651999310839496921090144230108961852610857264821083557874108256200010757883331069139782)
 (.leaf 62840051085059481109770647810937689181091882264108524841310785610991076734629107206118710683173601068194571107045362610793587611091271964))))
 (.node 4 (.node 2 (.node 1 (.leaf 62859051056253860105400887810648371601066047520105911811610532724171050395064104738423210474318221045480803105468687810546238901054546393)
 (.leaf 63036061065541147107071347610704510041070833664106854220110656188921062168866106019865710589182781057457905105740847110597650071066316282))
 (.node 1 (.leaf 63070081074691635107386364110712018161072792835107579335910775546641076026155107534123110745267841073900043107452815610745264251074500016)
 (.leaf 63103061071992074106919574110693246731080933085108791712310795128291065488193105106492510404344601040707551105010624110655148811072056834)))
 (.node 2 (.node 1 (.leaf 63111051083229469109122416210915965621092635077108823880010821344151076704834107312766210687637651066114483106865781210724497771084826561)
 (.leaf 63115071055328641105656968110571459811059329028105692359910589815281059103870105014328610463246621045897394105370909110547494951055899131))
 (.node 1 (.leaf 63135111076118626105361347010504875531057877127106950305310787432251084591314108573805310841875571083878061107637201210646764801057917348)
 (.leaf 63151111082311540106786868310657605931065748934106928207310814103141091020696109186695610896456311086527598108325760310768063721070652881)))))
 (.node 8 (.node 4 (.node 2 (.node 1 (.leaf 63157101074841564105014316110364356311016518151099492929910028022471028749729108531975510940656101089028331107007743410565632301054631542)
 (.leaf 63168111074365736104625539910268616851017266683101585576310250517651053956791108370928010921418661083817902108183213010685077921059157463))
 (.node 1 (.leaf 63171101066128340104600272310415140081040432957103677798210358770031047162090107367469210843779501080229622106326349110545336281049878720)
 (.leaf 63202081079208628107761747210734667221074013450108055828710860358471085403914108284995610777881391074614608107394630810763734061079799452)))
 (.node 2 (.node 1 (.leaf 63227051089047166109837156010978385771096723412109276454910854683951080936597107778588710749196161072303791107378441710816962191093416268)
 (.leaf 63274111060136314105559866910530654061052840618105495861710590962891064964836106712204010660742871062543070106088646810586611261057636891))
 (.node 1 (.leaf 63357061071118529107201702010704903521071633510107103108610717005691070928961107096034010706188401070216251107095672710709594461071909244)
 (.leaf 63375071066532133106424142510611010481066181414107519543210707080881067083539106620028810645327011062419759106345454510651901131064714353))))
 (.node 4 (.node 2 (.node 1 (.leaf 63452071042399587103648234610402213251048535852105718184310579052651045152692101727666509870253531004047109102050702010262123341031040546)
 (.leaf 63455051053446441105878503310607978241065212079105830849010532342281047538381104107116410389818871041848581104430921210457127271054014293))
 (.node 1 (.leaf 63518101074995957105154473810406821381025466582100701003710036025211025285051108412164410941542741090128466107234895610574620011054678504)
 (.leaf 63540121058436986105116695710471571991045226401104237747310434564921048669896105236806410659393981073989049106694398810586749561054595836)))
 (.node 2 (.node 1 (.leaf 63585071067766475106457396110665643621073952748107375614910692520771067823232106756100610669798101066189800106593009910647485031064544209)
 (.leaf 63682121071855681106902924710670167081067004698106542259110663763901076985463107502210210753421271075255277107423388910719030261070546920))
 (.node 1 (.leaf 63730011083427575108286649710801720001080085075107865242610836412511084200413108453410310842535391084653986108560576710847030751084021871)
 (.leaf 63773071078561614107749366110768570411082397841108361927410824137811079804279107811524410756778781074935161107530000210764361291077649481))))))
 (.node 16 (.node 8 (.node 4 (.node 2 (.node 1 (.leaf 63777051055047322106015534210627415651066715640105970956910543788421048256876104111580110388205201041852350104480732510470448771055659785)
 (.leaf 63792061072530665107212208710707301971080968724108807281110803583541065637042105029686710398138481039890499104803260010643653971073090005))
 (.node 1 (.leaf 63800071062625614106382111610651716901067201164106446850010662795331065457871105716706210526219251053239280105971336310641528551065300077)
 (.leaf 63802111080285758107406332010733371501076811788107547952310760051201077252441109036020310860853231083295610108248074610788330771075522302)))
 (.node 2 (.node 1 (.leaf 63826111083487949106937325510669392791067039436107057232810823819011092017078109348949210911705921088377857108453851010786959341073449213)
 (.leaf 63840111074273744104804900210289534811017845168101676698510265455951053342845108311038810921236111083759950108169806810688858721059656665))
 (.node 1 (.leaf 63895051086289388109915174410952429021092959546108686004410805901871078301095107403424010699615581069162025107143724610799419901091827675)
 (.leaf 63995081077038809107505493010727809351075425157108439258910828321241078318838107704388910755610621074316622107468831210752559391075351019))))
 (.node 4 (.node 2 (.node 1 (.leaf 64007041064038008106560042110641267761065282426106360364210629208871061934101106234314410627976081063166898106485509810652623381065834386)
 (.leaf 64052061059212905104879023910515985011066982377107630068910710501581057141187102832091310154005181030122614104516199410526942881051049195))
 (.node 1 (.leaf 64053071079110357107784373210772659881082762887108421146710828150581080484072107868040410761800091075210236107567324310767394401078059630)
 (.leaf 64067071067859319106010515710631004621071018966107671833410838226331076957462105919704910403013431033426123104411403310552742451058741875)))
 (.node 2 (.node 1 (.leaf 64068061072560870107263181510709301621080911613108808352910804694021065534777104916750510387569911039462940104751066910640929621073270872)
 (.leaf 64070051085306111109325195410938078421094781907109091184710842288531079164289107510023210711040321067870943107034893510750289721087338153))
 (.node 1 (.leaf 64099111084582452107087672110681055111068522046107240463410837244861093135320109474017410921879341089774538108550487110800978161074513075)
 (.leaf 64114111082886039106918709010650499501062202869105857793510591889371076721060109200313510972332341093227890108590527410776787641073682296)))))
 (.node 8 (.node 4 (.node 2 (.node 1 (.leaf 64249081083332605107348618210688651631069388170108792691910954799381087333567108439389310828794571082107101108301013010803690371076271698)
 (.leaf 64258071071575638107131000010697924231073800351107750664810764223861072243008107020892810682040671066844158106763418110684285711070009026))
 (.node 1 (.leaf 64282061079676008108113068110800580411083611176108579045910830762021078334210107758019610759365301074701726107531971810763147881078171825)
 (.leaf 64292081090163353108362649810837620781087240913109124293710977462211098853313109322784610858168981085082933108513968310860359171085190837)))
 (.node 2 (.node 1 (.leaf 64304051056690040106205771310642646761067698366106160324110562490211049263539104026143110350255791040863434104566188610491160341057594010)
 (.leaf 64333111080146039106212646910580356821058935671106559973410770618491087130503109159030310891115841088762779108179318810702441151066299052))
 (.node 1 (.leaf 64389051098466297110958790011067153881105277109110013861510934481311090663004108610942010829154271079852406108025612210912798251103039343)
 (.leaf 64483011083802607108337982510809572181080803613107908176610837841861084427472108478888410845373291085033157108614246410853042471084616776))))
 (.node 4 (.node 2 (.node 1 (.leaf 64501091071558658106780936410651665831064232755107164315810771082131076372154107485188310731508071070661060107044038710700290331069478176)
 (.leaf 64504081090220578108367798710838032621087284535109124760210977503991098905333109329568710858957931085131499108518742010860877061085256858))
 (.node 1 (.leaf 64521061063984528105539005610532957021067319202108351309810774076321055450094101178934809747535631029725381104303973910509288371053581455)
 (.leaf 64543111080630828106247878810582828941059206466106572998510773199611087579651109195792310896798701089229826108222110410706374891066542934)))
 (.node 2 (.node 1 (.leaf 64549111086201059107341862310701988161071417579107475975910854824071094713243109660862710936009381091155327108677049610822114481076194327)
 (.leaf 64561111082619314106911324710649885441062173049105852722610585758551075491474109136117210967907601093125753108586536210776066801073586429))
 (.node 1 (.leaf 64594051100175736111113997711086024281107537191110212202810961974571093252262108975663610855465901083350821108371506410922697731104168551)
 (.leaf 64688061083228817108418521710834664121086582884108992445210864824121082386311108140122010792182591077659791107830274610795509611082325549))))))))
 (.node 64 (.node 32 (.node 16 (.node 8 (.node 4 (.node 2 (.node 1 (.leaf 64694071060020561105469263310562277471064631993107044295110739837361067844345105730014210385562871031154808103832563510469690561051157320)
 (.leaf 64699071068812493106611595110732488061080413455108070601810814563831073216545104853200710059650541014312971102793581610417573421054292289))
 (.node 1 (.leaf 64717071070513116107350924510735034001075813718107360659510741125451071895438106524247610600242691059106155106352080810707917831074785299)
 (.leaf 64726111081118924106277476610584644351059458932106587509410775802361088033305109233308210902738831089699638108247212210710245791066764227)))
 (.node 2 (.node 1 (.leaf 64733111076019218105432007610464947311037288309102741062610238217101035273391107925224110945742491092654060107821031010626009681056501824)
 (.leaf 64763061094474424110201465211026641721102377772110061722710945155481089084622108579574410826973941078927152107976742510848208961095965172))
 (.node 1 (.leaf 64807091073900247106069694910574114451056126125105432421710661778331090871449108422204510742596861073796752107118654910664435601063913005)
 (.leaf 64846101080683805105834022510552671901054863149108030183510866689291084502374109078082810916866291084909003107733709810675935891060670132))))
 (.node 4 (.node 2 (.node 1 (.leaf 64857121090869945108664487510854653481087769194109117078710950400741095103487109286125810891558081088455934109024235610912881601088584348)
 (.leaf 64878071044845503103963176010423247041051910197105209704410550932081050990570103993187510341652311036308005103433708610365261091037674779))
 (.node 1 (.leaf 64880111067241995106230531210593145071059160384105875771910610830991066669881107398164110733211791074666077107246883110660508331064422538)
 (.leaf 64881061072431490107395296710709028611079930608108787671510815095691065970578104867116810377008341038318464104399469310612273571072620366)))
 (.node 2 (.node 1 (.leaf 65000071058485600106005438610584351231059095273105887894810626173791064455327105662651610449742581046370619105696248210601321121060310724)
 (.leaf 65018061060206251105113199510570775231067163571108114198210742361781044261326000000000000000000000000000000098843562410366931701036996971))
 (.node 1 (.leaf 65030091079804540107022845310715377441078354921108492500110861883801083844080108426883410843614311079542511107484825310704531201069584399)
 (.leaf 65042111079328507106282683410610156801066772382106822374610688486111081217780109036843310896635531087068494108463727410753163421067338217)))))
 (.node 8 (.node 4 (.node 2 (.node 1 (.leaf 65051111082551051107088361810664838541064397746106004032010580953651068129954108767200410963125881094222032108785627010796569131074783535)
 (.leaf 65129081083924892107453293210701216111070118988108656632310963751251088973712108529218310834997751082573780108347465710822306041077596131))
 (.node 1 (.leaf 65141081075275915106861807610658431321067368805108463245610824977151077918432107609775510744872621072785386107411755410736457961070668852)
 (.leaf 65147071072892395107057504810685786191073404748108183545710824377151075640058107280211710691779741066154099106377291110614396401066841093)))
 (.node 2 (.node 1 (.leaf 65148081091319713108544270210856931181089297936109227179510990497051099724436109435127110867391651085883252108643355110881015211087217443)
 (.leaf 65162071061197235105848636710614878251068571392106609838010671291891065575115105718937110526138691052745817105706264510585515191058609357))
 (.node 1 (.leaf 65163111067294041106246516210594311681059242131105880507210609695431066486370107389672510734182721074765630107274444410662082331064627857)
 (.leaf 65166071058452307105878495210600894901064778310106054157510627544711060618469105281538810494671911049059715105327468910586509151058971797))))
 (.node 4 (.node 2 (.node 1 (.leaf 65179111080203656106418196510613391661066488320106855490110690973911081117013109071683010907551591088127887108563620510768097351068692399)
 (.leaf 65212051101462182111210978511099792841108687372110464873810993489891096024990109235579410889899231085955670108628025810918586021103845964))
 (.node 1 (.leaf 65219121098996568109155404410933086491094790052109868625211001101111101158103110280093611001938511099791500110137956510997274451092717368)
 (.leaf 65247081071293731104459450610414946761040997450104378204410848310161089605069107458753710699711431069497624106577909710552410691048554243)))
 (.node 2 (.node 1 (.leaf 65273061083725786108451701510839792241086930774109033839710883217811083225267108223520210802070891078218024107867330210796744071082514497)
 (.leaf 65293111067468874106263793210595505391059368972105901531510612433471066583549107397466610737676161074988342107304438410663654091064859328))
 (.node 1 (.leaf 65306101099590201108648633810850587931087543985109234088911008175811107674994110843644111072684291103468235109846356510934000541089309888)
 (.leaf 65451121044190097104382105610418852481042883656104251955510433363771043766244104556820710461950641045777669104587534610446727161043980025))))))
 (.node 16 (.node 8 (.node 4 (.node 2 (.node 1 (.leaf 65498071081656572108186241210841356811088793081108917338910898409711084375839107260245110632988891064817567106781567610745197581079112500)
 (.leaf 65511111069946222106457112810609702421061213387106098670210641167311068735912107574680910765992181077787060107563273310683352821066406988))
 (.node 1 (.leaf 65512071079291457107867454910802124201084919643108252074710830780051082546315107453348510697129231071161007107557880010800814681080630284)
 (.leaf 65523111083775251106735705710646331231067639280107007147610741612261085021200109379009710942588801091773822108906798510813950121072792777)))
 (.node 2 (.node 1 (.leaf 65532121077696489107417151410694798921068104985106569790710653551241067877582107312942210795909411090855115108825223210811596401076761867)
 (.leaf 65585081082018156107822118210758383531077256584108643933310897586911084037362108279836210807992371078549925107826740110785606551079178763))
 (.node 1 (.leaf 65589091083098412106686571110620754811060716079108938929410948331731087939376108504368010860366101082776689108127715010788271681073036109)
 (.leaf 65596061084514169108520015210848157841087863806109102114510900308771084300043108297903110815102461079165942107942538710802581161083016372))))
 (.node 4 (.node 2 (.node 1 (.leaf 65608081068751323106350640710667634571072827349107525663010805283891081991931106918030610543691201043053609103833277910474020401058232259)
 (.leaf 65622111084239681106794731910653276841067798003107038762910745549581085426012109425881210948932491092242397108975918510822914751073777509))
 (.node 1 (.leaf 65687061083547385108423419210840012011086795409109002653810885543371083320812108198852810798501611077752585107797256410787215461082167359)
 (.leaf 65691081095879607109345304710945929691098682690109958901211028030061102497728109682169210885538391087485529108945982410918108551093609332)))
 (.node 2 (.node 1 (.leaf 65698061097370606110091996411022161771106098870110287610411000334741095277567109188355010885721991086068020108492107310882559571096588517)
 (.leaf 65702061073899748107708251310748427681080124639108755311810836196941069107343105193799110405207321039752803104267658810584772761071841765))
 (.node 1 (.leaf 65762081091239741108098210410761911971077154579109904617011029257991094487715109133260710893461251087679716108959916910898664431084852489)
 (.leaf 65774081095868819109342343310944926261098630409109952145711026916461102581183109711864610887990121087351990108939426110917027911093641105)))))
 (.node 8 (.node 4 (.node 2 (.node 1 (.leaf 65783081067526005106201994610658044831071184671107419532810787533931080388759106806617110531498151041941329103676992210450416971057173703)
 (.leaf 65784071081819105108216087410828838601087078046108428793810847011451083823251107592337410717024891071833613107654961310822499761083259840))
 (.node 1 (.leaf 65786091087342222107981421310844242671092037374109547447010937971861087871515108757825610898866601083775252108139816110784713161078814137)
 (.leaf 65788111053597770104834918710476740401047611742104777706010488957061050246934105706787110601431761063768350106200465810453314831043642347)))
 (.node 2 (.node 1 (.leaf 65811061080036762107662492810858617621090242437108857989110843509101079525572107691652210740489351069386172106722898310656002561070371121)
 (.leaf 65844101088601469106775208310642272771063271250108432257210979017641093261225109485477010987192781093315590108834309810814328181072175800))
 (.node 1 (.leaf 65863061074067982107746221510751613961080193516108740690610839506551069665508105347403210419510361040642934104323586910593977791071870741)
 (.leaf 65893121059834633105560439010533143911053983589105380469410562770821057295305105964087210651873621067741993106679215110617900561056708494))))
 (.node 4 (.node 2 (.node 1 (.leaf 65927081096012654109381437110947965591098966997109954734411025653561102766186109752512010889986071086985536108928974810915659121093973213)
 (.leaf 65935081067667260106327201910664747211071082724107384602910777271311080649944106937401110564976181044790388104054354310441048501057348808))
 (.node 1 (.leaf 65940111080572456106106094310580694311060495781106447867510715413661086694318109314730810910959601088223855108232949610703871801065378609)
 (.leaf 65958061112643528111450609411182346481121489762111937587511165278201111127605110822760411049439791102003695110150213211034801791108786777)))
 (.node 2 (.node 1 (.leaf 65959051087303970109619172211002132181094262574109296735210857269231080407713107770601310744565901070175562106875552210688631851084184613)
 (.leaf 65962051105473411111302743611120381311110530911110825817611049913591103120022110086538410977672281096609182109851536310986992981104569049))
 (.node 1 (.leaf 65989021067197139106743800710661421961066766148106606127210681536331072818011106992787310648089951061961478106512177110673533791067729205)
 (.leaf 65991021082884807108333965710799709611078535760107584791410759825781075429177107890480810845764381087816077108854217710865045921085111852)))))))
 (.node 32 (.node 16 (.node 8 (.node 4 (.node 2 (.node 1 (.leaf 65993071072073502106479963810660378871073464333108094977510859437281082199855107122186710574068751046566394105051184210572157001061314869)
 (.leaf 66009111081656640106261219810591209601061411604106521990510719244341087089541109378702410918368641089490116108311325410719799921066467286))
 (.node 1 (.leaf 66062081096870363109562486610965429641099786329110007667611028399241103074891109805916310895769071086938252108954092210921086821095377034)
 (.leaf 66093061108150914111455527111135710391112000184110992620611083059151107111846110488029911017441581101245019110321218511023617861107275613)))
 (.node 2 (.node 1 (.leaf 66136111082720293106456260510604414201062699790106572909610725400891087879986109472291910929155211090987408108445777710740985541067819706)
 (.leaf 66183071082640632108306691610831539921085220814108803094210881747791082926229108037655710786244711076715426107670720110769959221080025645))
 (.node 1 (.leaf 66190111072048869106660032110631909041062779482106305795710662690521067947739107535132110784726231080908539107820534410717204611068596496)
 (.leaf 66195111052362061104595539610450415891043894169104209163710437287941049221290105813187810580142711061588598106321065310468457891042592770))))
 (.node 4 (.node 2 (.node 1 (.leaf 66196111082985982106496709010606787261062919319106585861410729107991088239785109507867610932973231091287893108476816610743711251068111623)
 (.leaf 66206061107715236111246695611162593751117032107111592117911094773651101657690109873165810943161401091096743109090714310945483371103734941))
 (.node 1 (.leaf 66231061075268807107575182410749571931076124588107573325410757644281075021901107500131910748234421074497631107496407110749524211075633610)
 (.leaf 66233081091591185108754114310849279861086869091110008036911004855881093712953109168831410894983091086636627108582412010867050481088598016)))
 (.node 2 (.node 1 (.leaf 66317061086814406109284359611001667461095858629109461031710872976551081204378107761770910725225191066529329106566919110642841321078160585)
 (.leaf 66320121056823588104842869210485819991049826868104924448810517584891053169854105721006510614768141064985700106477012110592256621050285326))
 (.node 1 (.leaf 66347071098080164109919699510984628311100388928110190361211008552191098953099109739137510942405971091490099109314626610952991561098874177)
 (.leaf 66365061086923740109269705011001659021095933485109475586810876807041081931402107842366910734864811066909704106558188810638170461077685093)))))
 (.node 8 (.node 4 (.node 2 (.node 1 (.leaf 66366061088604098108987474010947142611098067215109518229310919220481087247503108502024110828798351079533561107739879410754726491080136043)
 (.leaf 66391071098161193109927135410984677911100454111110187835611010009111099054240109756398610944629761091544373109306861610951048611098924827))
 (.node 1 (.leaf 66401111093348669108054778110748925431074450579107648396510832912701091265998110043814211054222621103469401109911349110927167811086036685)
 (.leaf 66411061108881852111421270611144783721112921948111116592611093295531108177673110708091711032417421102313894110524889311037402351107188881)))
 (.node 2 (.node 1 (.leaf 66427061068704197106936822710683898711069763189106925960310692218291068204891106824146310681115841067854658106851351910684353321069086194)
 (.leaf 66468081075145379106620887510670132761074501740108266537510867780361085808721107844233010692911301060585962105757248610590620991062704551))
 (.node 1 (.leaf 66503081075191016106614419610669208051074234156108247521710866948761086034021107892857810699493561061242377105780683210589756741062598081)
 (.leaf 66532121089240782108554765110827373031081895106108421416910884396441086359252109119388410946404851094195110109264707710904174111087884233))))
 (.node 4 (.node 2 (.node 1 (.leaf 66602081075690283106646979010672606901074117098108231210810867723131086814678108063241110723078211064030243105955356010597662231063282908)
 (.leaf 66604111094897124107811958810744669871075148676107808468810874336931100314496110712905811047424501103522985109856264910881900171082403080))
 (.node 1 (.leaf 66632111095171761107831303210746359381075401963107866692610879202711100533371110738243911051176071103746964109881555310884321381082530606)
 (.leaf 66653061084841462108584667310850704521086478843108578311310855829321084466718108421070710836944631083340487108399814310842902781085334729)))
 (.node 2 (.node 1 (.leaf 66659081074681782106567483610663771451073116611108079525710852277091085269277107907301710710776821063320871105946381210594108291062349905)
 (.leaf 66663101088237072105697663410712062251084700186109242953410950363131091371621109128286610996102031096950376108176388110513242951040470420))
 (.node 1 (.leaf 66686091101236493110082934011000689791101529232110181564011024758221101937061110198349311015565521100809205110085673011003207721100655092)
 (.leaf 66708121090884953108632708910833108751082562502108603293210923074581088779606109225588010960104451095559687109381596710911573881088897981))))))
 (.node 16 (.node 8 (.node 4 (.node 2 (.node 1 (.leaf 66709061084904599108589104410851271061086569589108589184310856913221084557720108429532410837603161083382370108402297310843054451085360140)
 (.leaf 66711081101823677109582250710925638241092896659110619845111140015691107448084110268438111005063701098603294109812357910990365661098847380))
 (.node 1 (.leaf 66739091101495372110110393311003244951101833976110217633911028516311102226305110222391611017550561100980647110104180511005230801100903281)
 (.leaf 66759061088985154109063227710896216841091016133109028588110897266851088134190108780074310871510351086725586108779171810883634841089962101)))
 (.node 2 (.node 1 (.leaf 66771111080763710107294278110693016471069389084106753934810661948411068730424107429100510922308411095631272108566922310774729271074806617)
 (.leaf 66795111082369292107437534410707033951070454312106841381310671165831070384256107586721510927098201097172223108811295810796385781076239326))
 (.node 1 (.leaf 66809081101925868109628573010928859921093015779110424990811142446551108026636110308310211007837431098940854109822299110989797691099102430)
 (.leaf 66832061089195395109074769810898504241091154870109054864010899923201088349793108799311710873189241086859875108793826110885223101090174423))))
 (.node 4 (.node 2 (.node 1 (.leaf 66842011076588063107470739110691262901068992490106776971110662992561065535127107046384010766949291084224993108692395010836090131079210991)
 (.leaf 66861011070325367106915165810660663681065310215106199311410586806631052337920105927843210740833671078235144108045646410763357931072092257))
 (.node 1 (.leaf 66937121091149787108722649810840217871083285548108377057810933299931089954557109150986210954888221096129771109471681310919035671090064016)
 (.leaf 66996081102228502109768107510939378471093833406110063437011140059161109619998110424101111014859841099443967109865430210986576381099626124)))
 (.node 2 (.node 1 (.leaf 67017111108268202109362513810909819761092152860109781053911053427331111364667111787630211168849301115955860111165093811036738981098003303)
 (.leaf 67034111108344702109373687710910864171092295695109796669211054733311111436372111795676711169575341116013294111176797611038252801098157202))
 (.node 1 (.leaf 67080011075887615107501741010716814621071098998106838903610637846681052818675106138924610772522511084433570108579932010827374901077990734)
 (.leaf 67082121089489829108314714410776500591076134020107658126110760417511073909461107940307410977857171101540125109924259810929889861087506140)))))
 (.node 2 (.node 1 (.leaf 67108011076085020107509607210718396361071292353106860509210644979211053954947106334830810775549011084591545108591826010828453701078114788)
 (.leaf 67148111112919075110152736511009883691103994276110898034911132695291117312079112092790611191080061118035546111586475211091703721103377755))
 (.leaf 67322011086801797108507834110801108681077472481107429937110741057021073947694107273925210774492751096529756109973631010949245691090905656)))))))

end WG
