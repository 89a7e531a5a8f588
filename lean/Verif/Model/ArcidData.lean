import Verif.Model.DataTree

/-! Generated by `tools/gen_network.py`. -/

namespace WG

set_option maxRecDepth 100000

/-- The rows of `/repo/input_data/static_input/ArcID_GCRC_Lon_Lat.txt`, which are numbered from 1 on (`ArcID`), 64 to a leaf,
each as 10 digits: `Lon` + 180 and `Lat` + 90, both in hundredths of a degree (5 digits each). -/
def arcidData : DTree :=
 (.node 1024 (.node 512 (.node 256 (.node 128 (.node 64 (.node 32 (.node 16 (.node 8 (.node 4 (.node 2 (.node 1 (.leaf 1422517375142751737514325173751437517375144251737514475173751452517375145751737514625173751467517375147251737514775173751482517375148751737514925173751497517375150251737515075173751512517375107751732510825173251092517325109751732511025173251332517325133751732513425173251347517325135251732513575173251362517325136751732513725173251377517325138251732513875173251392517325139751732514025173251407517325141251732514175173251422517325142751732514325173251437517325144251732514475173251452517325145751732514625173251467517325147251732514775173251482517325148751732514925173251497517325150251732515075173251512517325151751732515225173251527517325)
 (.leaf 1532517325153751732515425173251547517325155251732509775172750982517275098751727509925172750997517275100251727510075172751012517275101751727510225172751027517275103251727510375172751042517275104751727510525172751057517275106251727510675172751072517275107751727510825172751087517275109251727510975172751102517275110751727511125172751117517275112251727511275172751132517275113751727511425172751147517275115251727511575172751162517275116751727511775172751302517275130751727513125172751317517275132251727513275172751332517275133751727513425172751347517275135251727513575172751362517275136751727513725172751377517275138251727513875172751392517275))
 (.node 1 (.leaf 1397517275140251727514075172751412517275141751727514225172751427517275143251727514375172751442517275144751727514525172751457517275146251727514675172751472517275147751727514825172751487517275149251727514975172751502517275150751727515125172751517517275152251727515275172751532517275153751727515425172751547517275155251727515575172751562517275156751727515725172751577517275158251727515875172750917517225092251722509325172250937517225094251722509475172250952517225095751722509625172250967517225097251722509775172250982517225098751722509925172250997517225100251722510075172251012517225101751722510225172251027517225103251722510375172251042517225)
 (.leaf 1047517225105251722510575172251062517225106751722510725172251077517225108251722510875172251092517225109751722511025172251107517225111251722511175172251122517225112751722511325172251137517225114251722511475172251152517225115751722511625172251167517225117251722511775172251182517225118751722512025172251212517225121751722512225172251227517225123251722512375172251242517225124751722512525172251257517225126251722512675172251272517225127751722512825172251287517225129251722512975172251302517225130751722513125172251317517225132251722513275172251332517225133751722513425172251347517225135251722513575172251362517225136751722513725172251377517225)))
 (.node 2 (.node 1 (.leaf 1382517225138751722513925172251397517225140251722514075172251412517225141751722514225172251427517225143251722514375172251442517225144751722514525172251457517225146251722514675172251472517225147751722514825172251487517225149251722514975172251502517225150751722515125172251517517225152251722515275172251532517225153751722515425172251547517225155251722515575172251562517225156751722515725172251577517225158251722515875172251592517225159751722516025172251607517225088251717508875171750892517175089751717509025171750907517175091251717509175171750922517175092751717509325171750937517175094251717509475171750952517175095751717509625171750967517175)
 (.leaf 972517175097751717509825171750987517175099251717509975171751002517175100751717510125171751017517175102251717510275171751032517175103751717510425171751047517175105251717510575171751062517175106751717510725171751077517175108251717510875171751092517175109751717511025171751107517175111251717511175171751122517175112751717511325171751137517175114251717511475171751152517175115751717511625171751167517175117251717511825171751187517175119251717511975171751202517175120751717512125171751217517175122251717512275171751232517175123751717512425171751247517175125251717512575171751262517175126751717512725171751277517175128251717512875171751292517175))
 (.node 1 (.leaf 1297517175130251717513075171751312517175131751717513225171751327517175133251717513375171751342517175134751717513525171751357517175136251717513675171751372517175137751717513825171751387517175139251717513975171751402517175140751717514125171751417517175142251717514275171751432517175143751717514425171751447517175145251717514575171751462517175146751717514725171751477517175148251717514875171751492517175149751717515025171751507517175151251717515175171751522517175152751717515325171751537517175154251717515475171751552517175155751717515625171751567517175157251717515775171751582517175158751717515925171751597517175160251717516075171751612517175)
 (.leaf 1617517175162251717516275171751632517175163751717516425171751647517175165251717516575171751662517175166751717516725171751677517175168251717523775171752382517175238751717523925171752422517175242751717524325171752437517175085751712508625171250867517125087251712508775171250882517125089251712508975171250902517125090751712509125171250917517125092251712509275171250932517125093751712509425171250947517125095251712509575171250962517125096751712509725171250977517125098251712509875171250992517125099751712510025171251007517125101251712510175171251022517125102751712510325171251037517125104251712510475171251052517125105751712510625171251067517125))))
 (.node 4 (.node 2 (.node 1 (.leaf 1072517125107751712510825171251087517125109251712510975171251102517125110751712511125171251117517125112251712511275171251132517125113751712511425171251147517125115251712511575171251162517125116751712511725171251177517125118251712511875171251192517125119751712512025171251207517125121251712512175171251222517125122751712512325171251237517125124251712512475171251252517125125751712512625171251267517125127251712512775171251282517125128751712512925171251297517125130251712513075171251312517125131751712513225171251327517125133251712513375171251342517125134751712513525171251357517125136251712513675171251372517125137751712513825171251387517125)
 (.leaf 1392517125139751712514025171251407517125141251712514175171251422517125142751712514325171251437517125144251712514475171251452517125145751712514625171251467517125147251712514775171251482517125148751712514925171251497517125150251712515075171251512517125151751712515225171251527517125153251712515375171251542517125154751712515525171251557517125156251712515675171251572517125157751712515825171251587517125159251712515975171251602517125160751712516125171251617517125162251712516275171251632517125163751712516425171251647517125165251712516575171251662517125166751712516725171251677517125168251712516875171252347517125235751712523625171252367517125))
 (.node 1 (.leaf 2372517125237751712523825171252407517125241251712524175171252442517125244751712524525171252697517125270251712527075171252712517125274251712527475171252752517125275751712527625171250837517075084251707508475170750852517075085751707508625170750867517075087251707508775170750882517075088751707508925170750907517075091251707509175170750922517075092751707509325170750937517075094251707509475170750952517075095751707509625170750967517075097251707509775170750982517075098751707509925170750997517075100251707510075170751012517075101751707510225170751027517075103251707510375170751042517075104751707510525170751057517075106251707510675170751072517075)
 (.leaf 1077517075108251707510875170751092517075109751707511025170751107517075111251707511175170751122517075112751707511325170751137517075114251707511475170751152517075115751707511625170751167517075117251707511775170751182517075118751707511925170751197517075120251707512075170751212517075121751707512225170751227517075123251707512375170751242517075124751707512525170751257517075126251707512675170751272517075127751707512825170751287517075129251707512975170751302517075130751707513125170751317517075132251707513275170751332517075133751707513425170751347517075135251707513575170751362517075136751707513725170751377517075138251707513875170751392517075)))
 (.node 2 (.node 1 (.leaf 1397517075140251707514075170751412517075141751707514225170751427517075143251707514375170751442517075144751707514525170751457517075146251707514675170751472517075147751707514825170751487517075149251707514975170751502517075150751707515125170751517517075152251707515275170751532517075153751707515425170751547517075155251707515575170751562517075156751707515725170751577517075158251707515875170751592517075159751707516025170751607517075161251707516175170751622517075162751707516325170751637517075164251707516475170751652517075165751707516625170751667517075225251707522575170752262517075226751707522725170752277517075228251707522875170752292517075)
 (.leaf 2297517075230251707523075170752312517075231751707523425170752347517075235251707523575170752362517075236751707523725170752377517075238251707523875170752392517075239751707524025170752407517075241251707524175170752422517075242751707524325170752437517075244251707524475170752452517075259251707525975170752602517075272751707527325170752737517075274251707527475170752752517075275751707527625170752767517075277251707527775170750797517025080251702508075170250832517025083751702508425170250847517025085251702508575170250862517025086751702508725170250877517025088251702508875170250892517025089751702509025170250907517025091251702509175170250922517025))
 (.node 1 (.leaf 932517025093751702509425170250947517025095251702509575170250962517025096751702509725170250977517025098251702509875170250992517025099751702510025170251007517025101251702510175170251022517025102751702510325170251037517025104251702510475170251052517025105751702510625170251067517025107251702510775170251082517025108751702510925170251097517025110251702511075170251127517025113251702511375170251142517025114751702511525170251157517025116251702511675170251172517025117751702511825170251187517025119251702511975170251202517025120751702512125170251217517025122251702512275170251232517025123751702512425170251247517025125251702512575170251262517025)
 (.leaf 1267517025127251702512775170251282517025128751702512925170251297517025130251702513075170251312517025131751702513225170251327517025133251702513375170251342517025134751702513525170251357517025136251702513675170251372517025137751702513825170251387517025139251702513975170251402517025140751702514125170251417517025142251702514275170251432517025143751702514425170251447517025145251702514575170251462517025146751702514725170251477517025148251702514875170251492517025149751702515025170251507517025151251702515175170251522517025152751702515325170251537517025154251702515475170251552517025155751702515625170251567517025157251702515775170251582517025)))))
 (.node 8 (.node 4 (.node 2 (.node 1 (.leaf 1587517025159251702515975170251602517025160751702516125170251617517025162251702516275170251632517025163751702519825170251987517025199251702519975170252002517025200751702520125170252017517025202251702520275170252032517025203751702520425170252047517025205251702520575170252062517025206751702520725170252117517025212251702521275170252132517025226251702522675170252272517025227751702522825170252287517025229251702522975170252302517025232251702523275170252332517025233751702523575170252362517025236751702523725170252377517025238251702523875170252392517025239751702524025170252407517025241251702527175170252722517025272751702527325170252737517025)
 (.leaf 2742517025274751702527525170252757517025276251702527675170252772517025277751702507975169750802516975080751697508125169750832516975083751697508425169750847516975085251697508575169750862516975086751697508725169750877516975088251697508875169750892516975089751697509025169750907516975091251697509175169750922516975092751697509325169750937516975094251697509475169750952516975095751697509625169750967516975097251697509775169750982516975098751697509925169750997516975100251697510075169751012516975101751697510225169751027516975103251697510375169751042516975104751697510525169751057516975106251697510675169751072516975107751697510825169751087516975))
 (.node 1 (.leaf 1092516975115251697511575169751162516975116751697511725169751177516975118251697511875169751192516975119751697512025169751207516975121251697512175169751222516975122751697512325169751237516975124251697512475169751252516975125751697512625169751267516975127251697512775169751282516975128751697512925169751297516975130251697513075169751312516975131751697513225169751327516975133251697513375169751342516975134751697513525169751357516975136251697513675169751372516975137751697513825169751387516975139251697513975169751402516975140751697514125169751417516975142251697514275169751432516975143751697514425169751447516975145251697514575169751462516975)
 (.leaf 1467516975147251697514775169751482516975148751697514925169751497516975150251697515075169751512516975151751697515225169751527516975153251697515375169751542516975154751697515525169751557516975156251697515675169751572516975157751697515825169751587516975159251697515975169751602516975160751697516125169751617516975162251697519125169751917516975192251697519275169751932516975193751697519425169751947516975195251697519575169751962516975196751697519725169751977516975198251697519875169751992516975199751697520025169752007516975201251697520175169752022516975202751697520325169752037516975204251697520475169752052516975205751697520625169752067516975)))
 (.node 2 (.node 1 (.leaf 2072516975238751697523925169752397516975256251697525675169752572516975271251697527175169752722516975272751697527325169752737516975274251697527475169752752516975275751697527625169752767516975277251697527775169752782516975278751697527925169752797516975074251692507475169250752516925075751692507625169250767516925077251692508425169250847516925085251692508575169250862516925086751692508725169250877516925088251692508875169250892516925089751692509025169250907516925091251692509175169250922516925092751692509325169250937516925094251692509475169250952516925095751692509625169250967516925097251692509775169250982516925098751692509925169250997516925)
 (.leaf 1002516925100751692510125169251017516925102251692510275169251032516925103751692510425169251047516925105251692510575169251062516925110751692511125169251117516925112251692511275169251132516925113751692511425169251147516925115251692511575169251162516925116751692511725169251177516925118251692511875169251192516925119751692512025169251207516925121251692512175169251222516925122751692512325169251237516925124251692512475169251252516925125751692512625169251267516925127251692512775169251282516925128751692512925169251297516925130251692513075169251312516925131751692513225169251327516925133251692513375169251342516925134751692513525169251357516925))
 (.node 1 (.leaf 1362516925136751692513725169251377516925138251692513875169251392516925139751692514025169251407516925141251692514175169251422516925142751692514325169251437516925144251692514475169251452516925145751692514625169251467516925147251692514775169251482516925148751692514925169251497516925150251692515075169251512516925151751692515225169251527516925153251692515375169251542516925154751692515525169251557516925156251692515675169251572516925157751692515825169251587516925159251692515975169251602516925160751692516175169251622516925190751692519125169251917516925192251692519275169251932516925193751692519425169251947516925195251692519575169251962516925)
 (.leaf 1967516925197251692519775169251982516925198751692519925169251997516925200251692520075169252012516925201751692520225169252027516925203251692520375169252042516925204751692520525169252057516925256751692525725169252577516925271251692527325169252737516925274251692527475169252752516925275751692527625169252767516925277251692527775169252782516925278751692527925169252797516925281251692528175169252822516925282751692528325169252837516925068251687506875168750692516875069751687507025168750752516875075751687507625168750767516875077251687507775168750782516875078751687507925168750797516875080251687508175168750822516875082751687508325168750837516875))))
 (.node 4 (.node 2 (.node 1 (.leaf 857516875086251687508675168750872516875087751687508825168750887516875089251687508975168750902516875090751687509125168750917516875092251687509275168750932516875093751687509425168750947516875095251687509575168750962516875096751687509725168750977516875098251687509875168750992516875099751687510025168751007516875101251687510175168751022516875102751687510325168751037516875104251687510475168751052516875107751687510825168751087516875109251687510975168751102516875110751687511125168751117516875112251687511275168751132516875113751687511425168751147516875115251687511575168751162516875116751687511725168751177516875118251687511875168751192516875)
 (.leaf 1197516875120251687512075168751212516875121751687512225168751227516875123251687512375168751242516875124751687512525168751257516875126251687512675168751272516875127751687512825168751287516875129251687512975168751302516875130751687513125168751317516875132251687513275168751332516875133751687513425168751347516875135251687513575168751362516875136751687513725168751377516875138251687513875168751392516875139751687514025168751407516875141251687514175168751422516875142751687514325168751437516875144251687514475168751452516875145751687514625168751467516875147251687514775168751482516875148751687514925168751497516875150251687515075168751512516875))
 (.node 1 (.leaf 1517516875152251687515275168751532516875153751687515425168751547516875155251687515575168751562516875156751687515725168751577516875158251687515875168751592516875159751687516025168751607516875161251687516175168751907516875191251687519175168751922516875192751687519325168751937516875194251687519475168751952516875195751687519625168751967516875197251687519775168751982516875198751687519925168751997516875200251687520075168752012516875201751687520675168752757516875276251687527675168752772516875277751687527825168752787516875279251687527975168752802516875280751687528125168752817516875282251687528275168752832516875283751687528425168752847516875)
 (.leaf 2852516875066751682506725168250677516825068251682506875168250692516825069751682507025168250752516825075751682507625168250767516825077251682507775168250782516825078751682507925168250797516825080251682508075168250817516825082251682508275168250832516825083751682508425168250847516825087251682508775168250882516825088751682508925168250897516825090251682509075168250912516825091751682509275168250932516825093751682509425168250947516825095251682509575168250962516825096751682509725168250977516825098251682509875168250992516825099751682510025168251007516825101251682510175168251022516825102751682510325168251037516825104251682510475168251072516825)))
 (.node 2 (.node 1 (.leaf 1077516825108251682510875168251092516825109751682511025168251107516825111251682511175168251122516825112751682511325168251137516825114251682511475168251152516825115751682511625168251167516825117251682511775168251182516825118751682511925168251197516825120251682512075168251212516825121751682512225168251227516825123251682512375168251242516825124751682512525168251257516825126251682512675168251272516825127751682512825168251287516825129251682512975168251302516825130751682513125168251317516825132251682513275168251332516825133751682513425168251347516825135251682513575168251362516825136751682513725168251377516825138251682513875168251392516825)
 (.leaf 1397516825140251682514075168251412516825141751682514225168251427516825143251682514375168251442516825144751682514525168251457516825146251682514675168251472516825147751682514825168251487516825149251682514975168251502516825150751682515125168251517516825152251682515275168251532516825153751682515425168251547516825155251682515575168251562516825156751682515725168251577516825158251682515875168251592516825159751682516025168251607516825191251682519175168251922516825192751682519325168251937516825194251682519475168251952516825195751682519625168251967516825197251682519775168251982516825198751682519925168252002516825200751682520125168252017516825))
 (.node 1 (.leaf 2022516825202751682520325168252797516825280251682528075168252812516825281751682528225168252827516825283251682528375168252842516825284751682528525168252862516825286751682528725168252877516825065251677506575167750662516775066751677506725167750677516775068251677506875167750692516775069751677507025167750742516775074751677507775167750782516775078751677507925167750797516775080251677508075167750827516775083251677508375167750842516775084751677508525167750857516775086251677508675167750887516775089251677508975167750917516775092251677509275167750932516775093751677509425167750947516775095251677509575167750962516775096751677509725167750977516775)
 (.leaf 982516775098751677509925167750997516775100251677510075167751012516775101751677510225167751027516775103251677510375167751077516775108251677510875167751092516775109751677511025167751107516775111251677511175167751122516775112751677511325167751137516775114251677511475167751152516775115751677511625167751167516775117251677511775167751182516775118751677511925167751197516775120251677512075167751212516775121751677512225167751227516775123251677512375167751242516775124751677512525167751257516775126251677512675167751272516775127751677512825167751287516775129251677512975167751302516775130751677513125167751317516775132251677513275167751332516775))))))
 (.node 16 (.node 8 (.node 4 (.node 2 (.node 1 (.leaf 1337516775134251677513475167751352516775135751677513625167751367516775137251677513775167751382516775138751677513925167751397516775140251677514075167751412516775141751677514225167751427516775143251677514375167751442516775144751677514525167751457516775146251677514675167751472516775147751677514825167751487516775149251677514975167751502516775150751677515125167751517516775152251677515275167751532516775153751677515425167751547516775155251677515575167751562516775156751677515725167751577516775158251677515875167751592516775159751677516025167751607516775161751677516225167751937516775194251677519475167751952516775195751677519625167751967516775)
 (.leaf 1972516775197751677519825167752012516775201751677520225167752027516775203251677520375167752042516775204751677526225167752792516775279751677528025167752832516775283751677528425167752847516775060251672506075167250612516725061751672506225167250627516725063251672506375167250642516725067251672506775167250682516725068751672506925167250697516725073751672507425167250747516725075251672508375167250842516725084751672508525167250857516725086251672508875167250892516725089751672509025167250917516725092251672509275167250932516725093751672509425167250947516725095251672509575167250962516725096751672509725167250977516725098251672509875167250992516725))
 (.node 1 (.leaf 997516725100251672510075167251012516725101751672510775167251082516725108751672510925167251097516725110251672511075167251112516725111751672511225167251127516725113251672511375167251142516725114751672511525167251157516725116251672511675167251172516725117751672511825167251187516725119251672511975167251202516725120751672512125167251217516725122251672512275167251232516725123751672512425167251247516725125251672512575167251262516725126751672512725167251277516725128251672512875167251292516725129751672513025167251307516725131251672513175167251322516725132751672513325167251337516725134251672513475167251352516725135751672513625167251367516725)
 (.leaf 1372516725137751672513825167251387516725139251672513975167251402516725140751672514125167251417516725142251672514275167251432516725143751672514425167251447516725145251672514575167251462516725146751672514725167251477516725148251672514875167251492516725149751672515025167251507516725151251672515175167251522516725152751672515325167251537516725154251672515475167251552516725155751672515625167251567516725157251672515775167251582516725158751672515925167251597516725160251672516075167251612516725161751672519425167251947516725195251672519575167251962516725196751672519725167251977516725198251672520125167252017516725202251672520275167252032516725)))
 (.node 2 (.node 1 (.leaf 2037516725248751672526225167252692516725269751672527575167252762516725281251672528175167252822516725282751672528325167252837516725284251672528475167252852516725285751672505875166750592516675059751667506025166750607516675061251667506175166750622516675062751667506325166750637516675065251667506575166750662516675070251667507075166750712516675075251667507575166750782516675078751667507925166750797516675080251667508125166750817516675083251667508375166750842516675084751667508525166750857516675086251667508675166750872516675087751667508825166750887516675089251667508975166750902516675090751667509125166750917516675092251667509275166750932516675)
 (.leaf 937516675094251667509475166750952516675095751667509625166750967516675097251667509775166750982516675098751667509925166750997516675100251667510075166751012516675101751667510225166751087516675109251667510975166751102516675110751667511125166751117516675112251667511275166751132516675113751667511425166751147516675115251667511575166751162516675116751667511725166751177516675118251667511875166751192516675119751667512025166751207516675121251667512175166751222516675122751667512325166751237516675124251667512475166751252516675125751667512625166751267516675127251667512775166751282516675128751667512925166751297516675130251667513075166751312516675))
 (.node 1 (.leaf 1317516675132251667513275166751332516675133751667513425166751347516675135251667513575166751362516675136751667513725166751377516675138251667513875166751392516675139751667514025166751407516675141251667514175166751422516675142751667514325166751437516675144251667514475166751452516675145751667514625166751467516675147251667514775166751482516675148751667514925166751497516675150251667515075166751512516675151751667515225166751527516675153251667515375166751542516675154751667515525166751557516675156251667515675166751572516675157751667515825166751587516675159251667515975166751602516675160751667516125166751617516675195751667519625166751967516675)
 (.leaf 1972516675205251667524575166752462516675246751667524725166752477516675248251667524875166752747516675275251667527575166752762516675277251667528075166752812516675281751667528225166752827516675283251667528375166752842516675284751667528525166752857516675286251667528675166752872516675287751667528825166752887516675289251667528975166752902516675290751667529125166752917516675328751667532925166750572516625057751662505825166250587516625059251662505975166250602516625060751662506125166250622516625062751662506325166250637516625064251662506475166250652516625065751662506625166250667516625067251662506975166250702516625070751662507125166250717516625))))
 (.node 4 (.node 2 (.node 1 (.leaf 757516625076251662507675166250772516625077751662507825166250787516625079251662507975166250802516625080751662508125166250817516625082251662508375166250842516625084751662508525166250857516625086251662508675166250872516625087751662508825166250887516625089251662508975166250902516625090751662509125166250917516625092251662509275166250932516625093751662509425166250947516625095251662509575166250962516625096751662509725166250977516625098251662509875166250992516625099751662510025166251007516625101251662511025166251107516625111251662511175166251122516625112751662511325166251137516625114251662511475166251152516625115751662511625166251167516625)
 (.leaf 1172516625117751662511825166251187516625119251662511975166251202516625120751662512125166251217516625122251662512275166251232516625123751662512425166251247516625125251662512575166251262516625126751662512725166251277516625128251662512875166251292516625129751662513025166251307516625131251662513175166251322516625132751662513325166251337516625134251662513475166251352516625135751662513625166251367516625137251662513775166251382516625138751662513925166251397516625140251662514075166251412516625141751662514225166251427516625143251662514375166251442516625144751662514525166251457516625146251662514675166251472516625147751662514825166251487516625))
 (.node 1 (.leaf 1492516625149751662515025166251507516625151251662515175166251522516625152751662515325166251537516625154251662515475166251552516625155751662515625166251567516625157251662515775166251582516625158751662515925166251597516625160251662516075166251612516625205251662524025166252407516625241251662524175166252422516625242751662524325166252437516625244251662524475166252452516625245751662524625166252467516625247251662524775166252482516625248751662527325166252737516625274251662527475166252752516625275751662527625166252767516625277251662527775166252782516625278751662527925166252797516625280251662528075166252812516625281751662528225166252827516625)
 (.leaf 2832516625283751662528425166252847516625285251662528575166252862516625286751662528725166252877516625288251662528875166252892516625289751662529025166252907516625291251662529175166252922516625292751662529325166253177516625318251662531875166253192516625321251662532175166250572516575057751657505875165750592516575059751657506025165750607516575061251657506175165750622516575062751657506325165750637516575064251657506475165750652516575065751657506625165750667516575067251657506775165750682516575070251657507075165750712516575071751657507225165750727516575073251657507375165750742516575076251657507675165750772516575077751657507825165750787516575)))
 (.node 2 (.node 1 (.leaf 792516575079751657508025165750807516575081251657508175165750822516575083751657508475165750852516575087751657508825165750887516575089251657508975165750902516575090751657509125165750917516575092751657509475165750952516575095751657509625165750967516575097251657509775165750982516575098751657509925165750997516575100751657511275165751132516575119751657512025165751207516575121251657512175165751222516575122751657512325165751237516575124251657512475165751252516575125751657512625165751267516575127251657512775165751282516575128751657512925165751297516575130251657513075165751312516575131751657513225165751327516575133251657513375165751342516575)
 (.leaf 1347516575135251657513575165751362516575136751657513725165751377516575138251657513875165751392516575139751657514025165751407516575141251657514175165751422516575142751657514325165751437516575144251657514475165751452516575145751657514625165751467516575147251657514775165751482516575148751657514925165751497516575150251657515075165751512516575151751657515225165751527516575153251657515375165751542516575154751657515525165751557516575156251657515675165751572516575157751657515825165751587516575159251657515975165751602516575238251657523875165752392516575239751657524025165752407516575241251657524175165752422516575242751657524325165752437516575))
 (.node 1 (.leaf 2442516575244751657524525165752457516575246251657527025165752707516575271251657527175165752722516575272751657527325165752737516575274251657527475165752752516575275751657527625165752767516575277251657527775165752782516575278751657527925165752797516575280251657528075165752812516575281751657528225165752827516575283251657528375165752842516575284751657528525165752857516575286251657528675165752872516575287751657528825165752887516575289251657528975165752902516575290751657529125165752917516575292251657529275165752932516575293751657531575165753162516575317251657531775165753182516575318751657531925165753197516575320251657532075165753212516575)
 (.leaf 3217516575322251657532275165753232516575323751657532425165753247516575325251657532625165750532516525062251652506275165250632516525063751652506425165250647516525065251652506575165250662516525066751652506725165250677516525068251652506875165250692516525069751652507025165250707516525071251652507175165250722516525072751652507325165250737516525074251652507525165250757516525076251652507925165250797516525080251652508075165250812516525081751652508225165250832516525083751652508425165250847516525085251652508575165250862516525087751652508825165250887516525089251652508975165250902516525090751652509125165250917516525092251652509275165250932516525)))))
 (.node 8 (.node 4 (.node 2 (.node 1 (.leaf 937516525094251652509475165250952516525095751652509625165250967516525097251652509775165250982516525098751652509925165250997516525100251652512175165251222516525122751652512325165251237516525124251652512475165251252516525125751652512625165251267516525127251652512775165251282516525128751652512925165251297516525130251652513075165251312516525131751652513225165251327516525133251652513375165251342516525134751652513525165251357516525136251652513675165251372516525137751652513825165251387516525139251652513975165251402516525140751652514125165251417516525142251652514275165251432516525143751652514425165251447516525145251652514575165251462516525)
 (.leaf 1467516525147251652514775165251482516525148751652514925165251497516525150251652515075165251512516525151751652515225165251527516525153251652515375165251542516525154751652515525165251557516525156251652515675165251572516525157751652515825165251587516525159251652515975165251602516525160751652516125165251617516525162251652523575165252362516525236751652523725165252377516525238251652523875165252392516525239751652524025165252407516525241251652524175165252422516525261751652526225165252672516525267751652526825165252687516525269251652526975165252702516525270751652527125165252717516525272251652527275165252732516525273751652527425165252747516525))
 (.node 1 (.leaf 2752516525275751652527625165252767516525277251652527775165252782516525278751652527925165252797516525280251652528075165252812516525281751652528225165252827516525283251652528375165252842516525284751652528525165252857516525286251652528675165252872516525287751652528825165252887516525289251652528975165252902516525290751652529125165252917516525292251652529275165252932516525293751652531575165253167516525317251652531775165253182516525318751652531925165253197516525320251652532075165253212516525321751652532225165253227516525323251652532375165253242516525324751652532525165253262516525326751652532725165253277516525328251652532875165253292516525)
 (.leaf 3297516525330251652533075165250642516475064751647506575164750662516475066751647506725164750677516475068251647506875164750692516475069751647507025164750707516475071751647507225164750727516475073251647507975164750802516475080751647508125164750837516475084251647508475164750852516475085751647508625164750877516475088251647508875164750892516475089751647509025164750907516475091251647509175164750922516475092751647509325164750937516475094251647509475164750952516475095751647509625164750967516475097251647509775164750982516475098751647509925164750997516475100251647512225164751227516475123251647512375164751242516475124751647512525164751257516475)))
 (.node 2 (.node 1 (.leaf 1262516475126751647512725164751277516475128251647512875164751292516475129751647513025164751307516475131251647513175164751322516475132751647513325164751337516475134251647513475164751352516475135751647513625164751367516475137251647513775164751382516475138751647513925164751397516475140251647514075164751412516475141751647514225164751427516475143251647514375164751442516475144751647514525164751457516475146251647514675164751472516475147751647514825164751487516475149251647514975164751502516475150751647515125164751517516475152251647515275164751532516475153751647515425164751547516475155251647515575164751562516475156751647515725164751577516475)
 (.leaf 1582516475158751647515925164751597516475160251647516075164751612516475161751647519925164752357516475236251647523675164752372516475237751647523825164752387516475239251647523975164752402516475240751647525925164752597516475265251647526575164752662516475266751647526725164752677516475268251647526875164752692516475269751647527025164752707516475271251647527175164752722516475272751647527325164752737516475274251647527475164752752516475275751647527625164752767516475277251647527775164752782516475278751647527925164752797516475280251647528075164752812516475281751647528225164752827516475283251647528375164752842516475284751647528525164752857516475))
 (.node 1 (.leaf 2862516475286751647528725164752877516475288251647528875164752892516475289751647529025164752907516475291251647529175164752922516475292751647531775164753182516475318751647531925164753197516475320251647532075164753212516475321751647532225164753227516475323251647532375164753272516475327751647532825164753287516475329251647532975164753302516475330751647505525164250557516425056251642505675164250572516425057751642505825164250587516425059251642505975164250602516425060751642506125164250617516425062251642506275164250662516425066751642506725164250677516425068251642508175164250822516425085251642508575164250862516425086751642508725164250917516425)
 (.leaf 922516425092751642509325164250937516425094251642509475164250977516425098251642512275164251232516425123751642512425164251247516425125251642512575164251262516425126751642512725164251277516425128251642512875164251292516425129751642513025164251307516425131251642513175164251322516425132751642513325164251337516425134251642513475164251352516425135751642513625164251367516425137251642513775164251382516425138751642513925164251397516425140251642514075164251412516425141751642514225164251427516425143251642514375164251442516425144751642514525164251457516425146251642514675164251472516425147751642514825164251487516425149251642514975164251502516425))))
 (.node 4 (.node 2 (.node 1 (.leaf 1507516425151251642515175164251522516425152751642515325164251537516425154251642515475164251552516425155751642515625164251567516425157251642515775164251582516425158751642515925164251597516425160251642516075164251987516425199251642523475164252352516425235751642523625164252367516425237251642523775164252382516425238751642523925164252622516425262751642526475164252652516425265751642526625164252667516425267251642526775164252682516425268751642526925164252697516425270251642527075164252712516425271751642527225164252727516425273251642527375164252742516425274751642527525164252757516425276251642527675164252772516425277751642527825164252787516425)
 (.leaf 2792516425279751642528025164252807516425281251642528175164252822516425282751642528325164252837516425284251642528475164252852516425285751642528625164252867516425287251642528775164252882516425288751642528925164252897516425290251642529075164252917516425292251642529275164252932516425315751642532025164253207516425321251642532175164250557516375056251637505675163750572516375057751637505825163750587516375059251637505975163750602516375060751637506125163750617516375062251637506275163750632516375063751637506425163750717516375072251637507325163750737516375074251637507475163750752516375078751637507925163750797516375080251637508075163750812516375))
 (.node 1 (.leaf 817516375082251637508275163750842516375084751637508525163750857516375086251637508675163750872516375087751637508825163750887516375089251637508975163750917516375092251637509275163750932516375093751637509425163750947516375096251637509675163750972516375097751637509825163750987516375099251637509975163751002516375100751637510125163751017516375102251637512325163751237516375124251637512475163751252516375125751637512625163751267516375127251637512775163751282516375128751637512925163751297516375130251637513075163751312516375131751637513225163751327516375133251637513375163751342516375134751637513525163751357516375136251637513675163751372516375)
 (.leaf 1377516375138251637513875163751392516375139751637514025163751407516375141251637514175163751422516375142751637514325163751437516375144251637514475163751452516375145751637514625163751467516375147251637514775163751482516375148751637514925163751497516375150251637515075163751512516375151751637515225163751527516375153251637515375163751542516375154751637515525163751557516375156251637515675163751572516375157751637515825163751587516375159251637515975163752337516375234251637523475163752352516375235751637523625163752367516375237251637523775163752382516375260251637526075163752612516375261751637526225163752627516375263251637526375163752642516375)))
 (.node 2 (.node 1 (.leaf 2647516375265251637526575163752662516375266751637526725163752677516375268251637526875163752692516375269751637527025163752707516375271251637527175163752722516375272751637527325163752737516375274251637527475163752752516375275751637527625163752767516375277251637527775163752782516375278751637527925163752797516375280251637528075163752812516375281751637528225163752827516375283251637528375163752842516375284751637528525163752857516375286251637528675163752872516375287751637528825163752887516375289751637529025163752907516375291251637529175163752922516375292751637529325163752942516375294751637529525163752957516375296251637529675163752972516375)
 (.leaf 2977516375303251637530375163753042516375304751637530525163753157516375316251637532025163753207516375321251637532175163753222516375322751637532325163750552516325055751632505625163250567516325057251632505775163250582516325058751632505925163250597516325060251632506075163250612516325061751632506225163250627516325063251632506375163250642516325064751632506525163250657516325071751632507225163250727516325073251632507375163250742516325074751632507525163250777516325078751632507925163250797516325080251632508075163250812516325081751632508225163250827516325083251632508425163250847516325085251632508575163250862516325086751632508725163250877516325))
 (.node 1 (.leaf 882516325088751632509075163250912516325091751632509225163250927516325093251632509375163250942516325094751632509525163250957516325096251632509675163250972516325097751632509825163250987516325099251632509975163251002516325100751632510125163251017516325102251632510275163251032516325103751632512375163251242516325124751632512525163251257516325126251632512675163251272516325127751632512825163251287516325129251632512975163251302516325130751632513125163251317516325132251632513275163251332516325133751632513425163251347516325135251632513575163251362516325136751632513725163251377516325138251632513875163251392516325139751632514025163251407516325)
 (.leaf 1412516325141751632514225163251427516325143251632514375163251442516325144751632514525163251457516325146251632514675163251472516325147751632514825163251487516325149251632514975163251502516325150751632515125163251517516325152251632515275163251532516325153751632515425163251547516325155251632515575163251562516325156751632515725163251577516325158251632515875163251592516325233251632523375163252342516325234751632523525163252357516325236251632523675163252372516325249751632525025163252507516325251251632525175163252542516325254751632525525163252557516325256251632525925163252602516325260751632526125163252617516325262251632526275163252632516325)))))))
 (.node 32 (.node 16 (.node 8 (.node 4 (.node 2 (.node 1 (.leaf 2637516325264251632526475163252652516325265751632526625163252667516325267251632526775163252682516325268751632526925163252697516325270251632527075163252712516325271751632527225163252727516325273251632527375163252742516325274751632527525163252757516325276251632527675163252772516325277751632527825163252787516325279251632527975163252802516325280751632528125163252817516325282251632528275163252832516325283751632528425163252847516325285251632528575163252862516325286751632528725163252877516325288251632528875163252892516325289751632529025163252907516325291251632529175163252922516325292751632529325163252937516325294251632529475163252952516325)
 (.leaf 2957516325296251632529675163252972516325297751632529825163252987516325299251632529975163253002516325303251632530375163253042516325304751632530525163253057516325306251632530675163253072516325307751632530825163253087516325309251632531975163253202516325320751632532125163253217516325322251632532275163253232516325323751632505525162750557516275056251627505675162750572516275057751627505825162750587516275059251627505975162750602516275060751627506125162750617516275062251627506275162750632516275063751627506425162750647516275065251627506575162750662516275066751627506725162750677516275068251627506875162750692516275069751627507025162750707516275))
 (.node 1 (.leaf 717516275072251627507275162750732516275073751627507425162750747516275077251627507775162750782516275078751627507925162750797516275080251627508075162750812516275081751627508225162750827516275083251627508425162750847516275085251627508575162750862516275086751627508725162750877516275088251627509025162750907516275091251627509175162750922516275092751627509325162750942516275094751627509525162750957516275096251627509675162750972516275097751627509825162750987516275099251627509975162751002516275100751627510125162751017516275102251627510275162751032516275103751627512375162751242516275124751627512525162751257516275126251627512675162751272516275)
 (.leaf 1277516275128251627512875162751292516275129751627513025162751307516275131251627513175162751322516275132751627513325162751337516275134251627513475162751352516275135751627513625162751367516275137251627513775162751382516275138751627513925162751397516275140251627514075162751412516275141751627514225162751427516275143251627514375162751442516275144751627514525162751457516275146251627514675162751472516275147751627514825162751487516275149251627514975162751502516275150751627515125162751517516275152251627515275162751532516275153751627515425162751547516275155251627515575162751562516275156751627515725162751577516275232251627523275162752332516275)))
 (.node 2 (.node 1 (.leaf 2337516275234251627523475162752352516275235751627523625162752492516275249751627525025162752507516275251251627525175162752522516275252751627525425162752547516275255251627525575162752577516275258751627525925162752607516275261251627526175162752622516275262751627526325162752637516275264251627526475162752652516275265751627526625162752667516275267251627526775162752682516275268751627526925162752697516275270251627527075162752712516275271751627527225162752727516275273251627527375162752742516275274751627527525162752757516275276251627527675162752772516275277751627527825162752787516275279251627527975162752802516275280751627528125162752817516275)
 (.leaf 2822516275282751627528325162752837516275284251627528475162752852516275285751627528625162752867516275287251627528775162752882516275288751627528925162752897516275290251627529075162752912516275291751627529225162752927516275293251627529375162752942516275294751627529525162752957516275296251627529675162752972516275297751627529825162752987516275299251627529975162753002516275300751627530125162753017516275302251627530275162753032516275303751627530425162753047516275305251627530575162753062516275306751627530725162753077516275308251627530875162753092516275320751627532125162753217516275322251627532275162753232516275323751627532425162753247516275))
 (.node 1 (.leaf 542516225054751622505525162250557516225056251622505675162250572516225057751622505825162250587516225059251622505975162250602516225060751622506125162250617516225062251622506275162250632516225063751622506425162250647516225065251622506575162250662516225066751622506725162250677516225068251622506875162250692516225069751622507025162250707516225071251622507175162250722516225072751622507325162250737516225074251622507475162250782516225078751622507925162250797516225080251622508075162250812516225081751622508225162250827516225083251622508375162250847516225085251622508575162250862516225090251622509075162250912516225091751622509225162250927516225)
 (.leaf 932516225093751622509475162250952516225095751622509625162250967516225097251622509775162250982516225098751622509925162250997516225100251622510075162251012516225101751622510225162251027516225103251622510375162251042516225104751622510525162251242516225124751622512525162251257516225126251622512675162251272516225127751622512825162251287516225129251622512975162251302516225130751622513125162251317516225132251622513275162251332516225133751622513425162251347516225135251622513575162251362516225136751622513725162251377516225138251622513875162251392516225139751622514025162251407516225141251622514175162251422516225142751622514325162251437516225))))
 (.node 4 (.node 2 (.node 1 (.leaf 1442516225144751622514525162251457516225146251622514675162251472516225147751622514825162251487516225149251622514975162251502516225150751622515125162251517516225152251622515275162251532516225153751622515425162251547516225155251622515575162251562516225156751622515725162251577516225231751622523225162252327516225233251622523375162252342516225234751622523525162252357516225248751622524925162252497516225250251622525075162252512516225251751622525225162252527516225254751622525525162252557516225256751622525725162252577516225258251622525875162252592516225259751622526025162252607516225261251622526175162252622516225262751622526325162252637516225)
 (.leaf 2642516225264751622526525162252657516225266251622526675162252672516225267751622526825162252687516225269251622526975162252702516225270751622527125162252717516225272251622527275162252732516225273751622527425162252747516225275251622527575162252762516225276751622527725162252777516225278251622527875162252792516225279751622528025162252807516225281251622528175162252822516225282751622528325162252837516225284251622528475162252852516225285751622528625162252867516225287251622528775162252882516225288751622528925162252897516225290251622529075162252912516225291751622529225162252927516225293251622529375162252942516225294751622529525162252957516225))
 (.node 1 (.leaf 2962516225296751622529725162252977516225298251622529875162252992516225299751622530025162253007516225301251622530175162253022516225302751622530325162253037516225304251622530475162253052516225305751622530625162253067516225307251622530775162253082516225308751622530925162253192516225319751622532025162253207516225321251622532175162253222516225322751622532325162253237516225324251622532475162253252516225325751622532625162253267516225327251622532775162253282516225328751622532925162253297516225000751617505425161750547516175055251617505575161750562516175056751617505725161750577516175058251617505875161750592516175059751617506075161750612516175)
 (.leaf 617516175062251617506275161750632516175063751617506425161750647516175065251617506575161750662516175066751617506725161750677516175068251617506875161750692516175069751617507025161750707516175071251617507175161750722516175072751617507325161750737516175074251617507475161750752516175079751617508025161750807516175081251617508175161750822516175082751617508325161750842516175084751617508525161750857516175086251617508975161750902516175090751617509125161750917516175092251617509275161750932516175093751617509425161750947516175095251617509575161750962516175096751617509725161750977516175098251617509875161750992516175099751617510025161751007516175)))
 (.node 2 (.node 1 (.leaf 1012516175101751617510225161751027516175103251617510375161751042516175104751617510525161751057516175106251617510725161751077516175124251617512475161751252516175125751617512625161751267516175127251617512775161751282516175128751617512925161751297516175130251617513075161751312516175131751617513225161751327516175133251617513375161751342516175134751617513525161751357516175136251617513675161751372516175137751617513825161751387516175139251617513975161751402516175140751617514125161751417516175142251617514275161751432516175143751617514425161751447516175145251617514575161751462516175146751617514725161751477516175148251617514875161751492516175)
 (.leaf 1497516175150251617515075161751512516175151751617515225161751527516175153251617515375161751542516175154751617515525161751557516175156251617515675161751572516175157751617515825161752312516175231751617523225161752327516175233251617523375161752342516175234751617523525161752357516175248251617524875161752492516175249751617525025161752507516175251251617525175161752522516175252751617525325161752537516175254251617525475161752552516175256251617525675161752572516175257751617525825161752587516175259251617525975161752602516175260751617526125161752617516175262251617526275161752632516175263751617526425161752647516175265251617526575161752662516175))
 (.node 1 (.leaf 2667516175267251617526775161752682516175268751617526925161752697516175270251617527075161752712516175271751617527225161752727516175273251617527375161752742516175274751617527525161752757516175276251617527675161752772516175277751617527825161752787516175279251617527975161752802516175280751617528125161752817516175282251617528275161752832516175283751617528425161752847516175285251617528575161752862516175286751617528725161752877516175288251617528875161752892516175289751617529025161752907516175291251617529175161752922516175292751617529325161752937516175294251617529475161752952516175295751617529625161752967516175297251617529775161752982516175)
 (.leaf 2987516175299251617529975161753002516175300751617530125161753017516175302251617530275161753032516175303751617530425161753047516175305251617530575161753062516175306751617530725161753077516175308251617530875161753092516175312251617531275161753132516175315751617531625161753172516175317751617531825161753187516175319751617532025161753207516175321251617532175161753222516175322751617532325161753237516175324251617532475161753252516175325751617532625161753267516175327251617532775161753282516175328751617532925161753297516175330251617500025161250007516125001251612500175161250022516125022751612502325161250237516125024251612502475161250252516125)))))
 (.node 8 (.node 4 (.node 2 (.node 1 (.leaf 562516125056751612505725161250577516125058251612505875161250592516125061751612506225161250627516125063251612506375161250642516125064751612506525161250657516125066251612506675161250672516125067751612506825161250687516125069251612506975161250702516125070751612507125161250717516125072251612507275161250732516125073751612507425161250747516125075251612507575161250807516125081251612508175161250837516125084251612508475161250852516125085751612508625161250867516125090251612509075161250912516125091751612509225161250927516125093251612509375161250942516125094751612509525161250957516125096251612509675161250972516125097751612509825161250987516125)
 (.leaf 992516125099751612510025161251007516125101251612510175161251022516125102751612510325161251037516125104251612510475161251052516125105751612510625161251067516125107251612510775161251082516125108751612512475161251252516125125751612512625161251267516125127251612512775161251282516125128751612512925161251297516125130251612513075161251312516125131751612513225161251327516125133251612513375161251342516125134751612513525161251357516125136251612513675161251372516125137751612513825161251387516125139251612513975161251402516125140751612514125161251417516125142251612514275161251432516125143751612514425161251447516125145251612514575161251462516125))
 (.node 1 (.leaf 1467516125147251612514775161251482516125148751612514925161251497516125150251612515075161251512516125151751612515225161251527516125153251612515375161251542516125154751612515525161251557516125156251612515675161251572516125157751612515825161251717516125205251612520575161252077516125231751612523225161252327516125233251612523375161252342516125234751612523525161252357516125236251612524675161252472516125247751612524825161252487516125249251612524975161252502516125250751612525125161252517516125252251612525275161252532516125253751612525425161252547516125255251612525575161252562516125256751612525725161252577516125258251612525875161252592516125)
 (.leaf 2597516125260251612526075161252612516125261751612526225161252627516125263251612526375161252642516125264751612526525161252657516125266251612526675161252672516125267751612526825161252687516125269251612526975161252702516125270751612527125161252717516125272251612527275161252732516125273751612527425161252747516125275251612527575161252762516125276751612527725161252777516125278251612527875161252792516125279751612528025161252807516125281251612528175161252822516125282751612528325161252837516125284251612528475161252852516125285751612528625161252867516125287251612528775161252882516125288751612528925161252897516125290251612529075161252912516125)))
 (.node 2 (.node 1 (.leaf 2917516125292251612529275161252932516125293751612529425161252947516125295251612529575161252962516125296751612529725161252977516125298251612529875161252992516125299751612530025161253007516125301251612530175161253022516125302751612530325161253037516125304251612530475161253052516125305751612530625161253067516125307251612530775161253082516125308751612530925161253097516125311751612531225161253127516125313251612531375161253142516125314751612531525161253157516125316251612531675161253172516125317751612531825161253187516125319251612531975161253202516125320751612532125161253217516125322251612532275161253232516125323751612532425161253247516125)
 (.leaf 3252516125325751612532625161253267516125327251612532775161253282516125328751612532925161253297516125330251612533075161253312516125331751612533575161253362516125336751612533725161253587516125359251612535975161250002516075000751607500125160750017516075019751607502025160750207516075021251607502175160750222516075022751607502325160750237516075024251607502475160750252516075025751607502625160750267516075027251607502775160750517516075061751607506225160750627516075063251607506375160750642516075064751607506525160750657516075066251607506675160750672516075067751607506825160750687516075069251607506975160750702516075070751607507125160750717516075))
 (.node 1 (.leaf 722516075072751607507325160750737516075074251607507475160750752516075075751607507625160750767516075077251607507925160750797516075083251607508375160750842516075084751607508525160750857516075086251607508675160750872516075087751607509075160750912516075091751607509225160750927516075093251607509375160750942516075094751607509525160750957516075096251607509675160750972516075097751607509825160750987516075099251607509975160751002516075100751607510125160751017516075102251607510275160751032516075103751607510425160751047516075105251607510575160751062516075106751607510725160751077516075108251607510875160751092516075109751607511025160751107516075)
 (.leaf 1112516075125251607512575160751262516075126751607512725160751277516075128251607512875160751292516075129751607513025160751307516075131251607513175160751322516075132751607513325160751337516075134251607513475160751352516075135751607513625160751367516075137251607513775160751382516075138751607513925160751397516075140251607514075160751412516075141751607514225160751427516075143251607514375160751442516075144751607514525160751457516075146251607514675160751472516075147751607514825160751487516075149251607514975160751502516075150751607515125160751517516075152251607515275160751532516075153751607515425160751547516075155751607515625160751567516075))))
 (.node 4 (.node 2 (.node 1 (.leaf 1572516075157751607515825160751712516075171751607520225160752027516075203251607520375160752042516075204751607520525160752057516075206251607520675160752072516075207751607520825160752087516075209251607520975160752102516075233751607523425160752347516075235251607523575160752362516075236751607523725160752467516075247251607524775160752482516075248751607524925160752497516075250251607525075160752512516075251751607525225160752527516075253751607525425160752547516075255251607525575160752562516075256751607525725160752577516075258251607525875160752592516075259751607526025160752607516075261251607526175160752622516075262751607526325160752637516075)
 (.leaf 2642516075264751607526525160752657516075266251607526675160752672516075267751607526825160752687516075269251607526975160752702516075270751607527125160752717516075272251607527275160752732516075273751607527425160752747516075275251607527575160752762516075276751607527725160752777516075278251607527875160752792516075279751607528025160752807516075281251607528175160752822516075282751607528325160752837516075284251607528475160752852516075285751607528625160752867516075287251607528775160752882516075288751607528925160752897516075290251607529075160752912516075291751607529225160752927516075293251607529375160752942516075294751607529525160752957516075))
 (.node 1 (.leaf 2962516075296751607529725160752977516075298251607529875160752992516075299751607530025160753007516075301251607530175160753022516075302751607530325160753037516075304251607530475160753052516075305751607530625160753067516075307251607530775160753082516075308751607530925160753097516075310251607531075160753112516075311751607531225160753127516075313251607531375160753142516075314751607531525160753157516075316251607531675160753172516075317751607531825160753187516075319251607531975160753202516075320751607532125160753217516075322251607532275160753232516075323751607532425160753247516075325251607532575160753262516075326751607532725160753277516075)
 (.leaf 3282516075328751607532925160753297516075330251607533075160753312516075331751607533225160753327516075333251607533375160753342516075334751607533525160753357516075336251607533675160753372516075337751607533825160753387516075339251607533975160753422516075358751607535925160753597516075017751602501825160250187516025019251602501975160250202516025020751602502125160250217516025022251602502275160250232516025023751602502425160250247516025025251602502575160250262516025026751602502725160250277516025028251602502875160250292516025029751602503025160250307516025031251602503175160250322516025032751602503325160250337516025034251602503625160250367516025)))
 (.node 2 (.node 1 (.leaf 492516025049751602505025160250517516025052251602505275160250627516025063251602506375160250642516025064751602506525160250657516025066251602506675160250672516025067751602506825160250687516025069251602506975160250702516025070751602507125160250717516025072251602507275160250732516025073751602507425160250747516025075251602507575160250762516025076751602507725160250777516025078251602507875160250792516025083751602508425160250847516025085251602508575160250862516025086751602508725160250877516025088251602509125160250917516025092251602509275160250932516025093751602509425160250947516025095251602509575160250962516025096751602509725160250977516025)
 (.leaf 982516025098751602509925160250997516025100251602510075160251012516025101751602510225160251027516025103251602510375160251042516025104751602510525160251057516025106251602510675160251072516025107751602510825160251087516025109251602510975160251102516025110751602511125160251117516025112251602512525160251257516025126251602512675160251272516025127751602512825160251287516025129251602512975160251302516025130751602513125160251317516025132251602513275160251332516025133751602513425160251347516025135251602513575160251362516025136751602513725160251377516025138251602513875160251392516025139751602514025160251407516025141251602514175160251422516025))
 (.node 1 (.leaf 1427516025143251602514375160251442516025144751602514525160251457516025146251602514675160251472516025147751602514825160251487516025149251602514975160251502516025150751602515125160251517516025152251602515275160251532516025153751602515425160251547516025155251602515575160251562516025156751602515725160251577516025158251602519075160251997516025200251602520075160252012516025201751602520225160252027516025203251602520375160252042516025204751602520525160252057516025206251602520675160252072516025207751602520825160252087516025209251602520975160252102516025210751602521125160252382516025238751602523925160252397516025247251602524775160252482516025)
 (.leaf 2487516025249251602524975160252502516025250751602525125160252517516025252251602525275160252537516025254251602525475160252552516025255751602525625160252567516025257251602525775160252582516025258751602525925160252597516025260251602526075160252612516025261751602526225160252627516025263251602526375160252642516025264751602526525160252657516025266251602526675160252672516025267751602526825160252687516025269251602526975160252702516025270751602527125160252717516025272251602527275160252732516025273751602527425160252747516025275251602527575160252762516025276751602527725160252777516025278251602527875160252792516025279751602528025160252807516025))))))
 (.node 16 (.node 8 (.node 4 (.node 2 (.node 1 (.leaf 2812516025281751602528225160252827516025283251602528375160252842516025284751602528525160252857516025286251602528675160252872516025287751602528825160252887516025289251602528975160252902516025290751602529125160252917516025292251602529275160252932516025293751602529425160252947516025295251602529575160252962516025296751602529725160252977516025298251602529875160252992516025299751602530025160253007516025301251602530175160253022516025302751602530325160253037516025304251602530475160253052516025305751602530625160253067516025307251602530775160253082516025308751602530925160253097516025310251602531075160253112516025311751602531225160253127516025)
 (.leaf 3132516025313751602531425160253147516025315251602531575160253162516025316751602531725160253177516025318251602531875160253192516025319751602532025160253207516025321251602532175160253222516025322751602532325160253237516025324251602532475160253252516025325751602532625160253267516025327251602532775160253282516025328751602532925160253297516025330251602533075160253312516025331751602533225160253327516025333251602533375160253342516025334751602533525160253357516025336251602533675160253372516025337751602533825160253387516025339251602533975160253402516025350751602535125160250167515975017251597501775159750182515975018751597501925159750197515975))
 (.node 1 (.leaf 202515975020751597502125159750217515975022251597502275159750232515975023751597502425159750247515975025251597502575159750262515975026751597502725159750277515975028251597502875159750292515975029751597503025159750307515975031251597503175159750322515975032751597503325159750337515975034251597503475159750352515975035751597503625159750367515975037251597503775159750382515975038751597503925159750397515975040251597504075159750442515975045751597504625159750467515975047251597504775159750482515975048751597504925159750497515975050251597505075159750512515975051751597505225159750527515975053251597505375159750547515975055251597505575159750567515975)
 (.leaf 572515975057751597505825159750587515975059251597506275159750632515975063751597506425159750647515975065251597506575159750662515975066751597506725159750677515975068251597506875159750692515975069751597507025159750707515975071251597507175159750722515975072751597507325159750737515975074251597507475159750752515975075751597507625159750767515975077251597507775159750782515975078751597507925159750817515975082251597508275159750832515975083751597508425159750847515975085251597508575159750862515975086751597508725159750877515975088751597509275159750932515975094751597509525159750957515975096251597509675159750972515975097751597509825159750987515975)))
 (.node 2 (.node 1 (.leaf 992515975099751597510025159751007515975101251597510175159751022515975102751597510325159751037515975104251597510475159751052515975105751597510625159751067515975107251597510775159751082515975108751597510925159751097515975110251597511075159751112515975111751597511225159751127515975125251597512575159751262515975126751597512725159751277515975128251597512875159751292515975129751597513025159751307515975131251597513175159751322515975132751597513325159751337515975134251597513475159751352515975135751597513625159751367515975137251597513775159751382515975138751597513925159751397515975140251597514075159751412515975141751597514225159751427515975)
 (.leaf 1432515975143751597514425159751447515975145251597514575159751462515975146751597514725159751477515975148251597514875159751492515975149751597515025159751507515975151251597515175159751522515975152751597515325159751537515975154251597515475159751552515975155751597515625159751567515975157251597515775159751907515975197251597519775159751982515975198751597519925159751997515975200251597520075159752012515975201751597520225159752027515975203251597520375159752042515975204751597520525159752057515975206251597520675159752072515975207751597520825159752087515975209251597520975159752102515975210751597521125159752117515975212251597521275159752132515975))
 (.node 1 (.leaf 2387515975239251597523975159752402515975240751597524125159752417515975242251597524275159752432515975243751597524675159752472515975247751597524825159752487515975249251597524975159752502515975250751597525125159752517515975252251597525275159752537515975254251597525475159752552515975255751597525625159752567515975257251597525775159752582515975258751597525925159752597515975260251597526075159752612515975261751597526225159752627515975263251597526375159752642515975264751597526525159752657515975266251597526675159752672515975267751597526825159752687515975269251597526975159752702515975270751597527125159752717515975272251597527275159752732515975)
 (.leaf 2737515975274251597527475159752752515975275751597527625159752767515975277251597527775159752782515975278751597527925159752797515975280251597528075159752812515975281751597528225159752827515975283251597528375159752842515975284751597528525159752857515975286251597528675159752872515975287751597528825159752887515975289251597528975159752902515975290751597529125159752917515975292251597529275159752932515975293751597529425159752947515975295251597529575159752962515975296751597529725159752977515975298251597529875159752992515975299751597530025159753007515975301251597530175159753022515975302751597530325159753037515975304251597530475159753052515975))))
 (.node 4 (.node 2 (.node 1 (.leaf 3057515975306251597530675159753072515975307751597530825159753087515975309251597530975159753102515975310751597531125159753117515975312251597531275159753132515975313751597531425159753147515975315251597531575159753162515975316751597531725159753177515975318251597531875159753192515975319751597532025159753207515975321251597532175159753222515975322751597532325159753237515975324251597532475159753252515975325751597532625159753267515975327251597532775159753282515975328751597532925159753297515975330251597533075159753312515975331751597533225159753327515975333251597533375159753342515975334751597533525159753357515975336251597533675159753372515975)
 (.leaf 3377515975338251597533875159753392515975339751597534025159753407515975341251597534175159753422515975342751597534325159753437515975344251597534475159753452515975345751597534725159753477515975348251597534875159753492515975350251597535075159753512515975351751597535225159753527515975353251597535375159753542515975354751597535525159753557515975356251597535675159753572515975016251592501675159250172515925017751592501825159250187515925019251592501975159250202515925020751592502125159250217515925022251592502275159250232515925023751592502425159250247515925025251592502575159250262515925026751592502725159250277515925028251592502875159250292515925))
 (.node 1 (.leaf 297515925030251592503075159250312515925031751592503225159250327515925033251592503375159250342515925034751592503525159250357515925036251592503675159250372515925037751592503825159250387515925039251592503975159250402515925040751592504125159250417515925044251592504475159250452515925045751592504625159250467515925047251592504775159250482515925048751592504925159250497515925050251592505075159250512515925051751592505225159250527515925053251592505375159250542515925054751592505525159250557515925056251592505675159250572515925057751592505825159250587515925059251592505975159250602515925060751592506125159250617515925062251592506375159250642515925)
 (.leaf 647515925065251592506575159250662515925066751592506725159250677515925068251592506875159250692515925069751592507025159250707515925071251592507175159250722515925072751592507325159250737515925074251592507475159250752515925075751592507625159250767515925077251592507775159250782515925078751592507925159250797515925080251592508075159250812515925081751592508225159250827515925083251592508375159250842515925084751592508575159250862515925086751592508725159250877515925088251592508875159250892515925089751592509075159250912515925094751592509525159250957515925096251592509675159250972515925097751592509825159250987515925100751592510125159251017515925)))
 (.node 2 (.node 1 (.leaf 1027515925103251592510375159251042515925104751592510525159251057515925106251592510675159251072515925107751592510825159251087515925109251592510975159251102515925110751592511125159251117515925112251592511275159251132515925125751592512625159251267515925127251592512775159251287515925129251592512975159251302515925130751592513125159251317515925132251592513275159251332515925133751592513425159251347515925135251592513575159251362515925136751592513725159251377515925138251592513875159251392515925139751592514025159251407515925141251592514175159251422515925142751592514325159251437515925144251592514475159251452515925145751592514625159251467515925)
 (.leaf 1472515925147751592514825159251487515925149251592514975159251502515925150751592515125159251517515925152251592515275159251532515925153751592515425159251547515925155251592515575159251952515925195751592519625159251967515925197251592519775159251982515925198751592519925159251997515925200251592520075159252012515925201751592520225159252027515925203251592520375159252042515925204751592520525159252057515925206251592520675159252072515925207751592520825159252087515925209251592520975159252102515925210751592521125159252117515925212251592521275159252132515925213751592521425159252147515925215251592521575159252162515925228251592522875159252292515925))
 (.node 1 (.leaf 2297515925230251592524025159252407515925241251592524175159252422515925242751592524325159252437515925244251592524475159252452515925245751592524775159252482515925248751592524925159252497515925250251592525075159252512515925251751592525225159252527515925253751592525425159252547515925255251592525575159252562515925256751592525725159252577515925258251592525875159252592515925259751592526025159252607515925261251592526175159252622515925262751592526325159252637515925264251592526475159252652515925265751592526625159252667515925267251592526775159252682515925268751592526925159252697515925270251592527075159252712515925271751592527225159252727515925)
 (.leaf 2732515925273751592527425159252747515925275251592527575159252762515925276751592527725159252777515925278251592527875159252792515925279751592528025159252807515925281251592528175159252822515925282751592528325159252837515925284251592528475159252852515925285751592528625159252867515925287251592528775159252882515925288751592528925159252897515925290251592529075159252912515925291751592529225159252927515925293251592529375159252942515925294751592529525159252957515925296251592529675159252972515925297751592529825159252987515925299251592529975159253002515925300751592530125159253017515925302251592530275159253032515925303751592530425159253047515925)))))
 (.node 8 (.node 4 (.node 2 (.node 1 (.leaf 3052515925305751592530625159253067515925307251592530775159253082515925308751592530925159253097515925310251592531075159253112515925311751592531225159253127515925313251592531375159253142515925314751592531525159253157515925316251592531675159253172515925317751592531825159253187515925319251592531975159253202515925320751592532125159253217515925322251592532275159253232515925323751592532425159253247515925325251592532575159253262515925326751592532725159253277515925328251592532875159253292515925329751592533025159253307515925331251592533175159253322515925332751592533325159253337515925334251592533475159253352515925335751592533625159253367515925)
 (.leaf 3372515925337751592533825159253387515925339251592533975159253402515925340751592534125159253417515925342251592534275159253432515925343751592534425159253447515925345251592534575159253462515925346751592534725159253477515925348251592534875159253492515925350751592535125159253517515925352251592535275159253532515925353751592535425159253547515925355251592535575159253562515925356751592535725159253577515925358251592535875159253592515925000251587500075158750012515875013751587501425158750147515875015251587501575158750162515875016751587501725158750177515875018251587501875158750192515875019751587502025158750207515875021251587502175158750222515875))
 (.node 1 (.leaf 227515875023251587502375158750242515875024751587502525158750257515875026251587502675158750272515875027751587502825158750287515875029251587502975158750302515875030751587503125158750317515875032251587503275158750332515875033751587503425158750347515875035251587503575158750362515875036751587503725158750377515875038251587503875158750392515875039751587504025158750407515875041251587504175158750422515875042751587504325158750437515875044251587504475158750452515875045751587504625158750467515875047251587504775158750482515875048751587504925158750497515875050251587505075158750512515875051751587505225158750527515875053251587505375158750542515875)
 (.leaf 547515875055251587505575158750562515875056751587505725158750577515875058251587505875158750592515875059751587506025158750607515875061251587506175158750622515875062751587506325158750637515875064251587506475158750652515875065751587506675158750672515875067751587506825158750687515875069251587506975158750702515875070751587507125158750717515875072251587507275158750732515875073751587507425158750747515875075251587507575158750762515875076751587507725158750777515875078251587507975158750802515875080751587508125158750817515875082251587508275158750832515875083751587508425158750847515875085251587508575158750862515875086751587508725158750877515875)))
 (.node 2 (.node 1 (.leaf 882515875088751587508925158750902515875090751587509125158750917515875094251587509475158750952515875095751587509625158750967515875097251587509775158750982515875098751587510075158751012515875103251587510375158751042515875104751587510525158751057515875106251587510675158751072515875107751587510825158751087515875109251587510975158751102515875110751587511125158751117515875126751587512725158751277515875128251587512875158751292515875129751587513025158751307515875131251587513175158751322515875132751587513325158751337515875134251587513475158751352515875135751587513625158751367515875137251587513775158751382515875138751587513925158751397515875)
 (.leaf 1402515875140751587514125158751417515875142251587514275158751432515875143751587514425158751447515875145251587514575158751462515875146751587514725158751477515875148251587514875158751492515875149751587515025158751507515875151251587515175158751522515875152751587515325158751537515875154251587519425158751947515875195251587519575158751962515875196751587519725158751977515875198251587519875158751992515875199751587520025158752007515875201251587520175158752022515875202751587520325158752037515875204251587520475158752052515875205751587520625158752067515875207251587520775158752082515875208751587520925158752097515875210251587521075158752112515875))
 (.node 1 (.leaf 2117515875212251587521275158752132515875213751587521425158752147515875215251587521575158752162515875216751587521725158752177515875218251587522325158752237515875224251587522475158752252515875228251587522875158752292515875229751587523275158752332515875233751587523425158752357515875236251587523675158752372515875237751587523825158752387515875239251587523975158752402515875240751587524125158752417515875242251587524275158752432515875243751587524425158752447515875245251587524575158752462515875246751587524725158752477515875248751587524925158752497515875250251587525075158752512515875251751587525225158752527515875253251587525375158752547515875)
 (.leaf 2552515875255751587525625158752567515875257251587525775158752582515875258751587525925158752597515875260251587526075158752612515875261751587526225158752627515875263251587526375158752642515875264751587526525158752657515875266251587526675158752672515875267751587526825158752687515875269251587526975158752702515875270751587527125158752717515875272251587527275158752732515875273751587527425158752747515875275251587527575158752762515875276751587527725158752777515875278251587527875158752792515875279751587528025158752807515875281251587528175158752822515875282751587528325158752837515875284251587528475158752852515875285751587528625158752867515875))))
 (.node 4 (.node 2 (.node 1 (.leaf 2872515875287751587528825158752887515875289251587528975158752902515875290751587529125158752917515875292251587529275158752932515875293751587529425158752947515875295251587529575158752962515875296751587529725158752977515875298251587529875158752992515875299751587530025158753007515875301251587530175158753022515875302751587530325158753037515875304251587530475158753052515875305751587530625158753067515875307251587530775158753082515875308751587530925158753097515875310251587531075158753112515875311751587531225158753127515875313251587531375158753142515875314751587531525158753157515875316251587531675158753172515875317751587531825158753187515875)
 (.leaf 3192515875319751587532025158753207515875321251587532175158753222515875322751587532325158753237515875324251587532475158753252515875325751587532625158753267515875327251587532775158753282515875328751587532925158753297515875330251587533075158753312515875331751587533225158753327515875333251587533375158753342515875334751587533525158753357515875336251587533675158753372515875337751587533825158753387515875339251587533975158753402515875340751587534125158753417515875342251587534275158753432515875343751587534425158753447515875345251587534575158753462515875346751587534725158753477515875348251587534875158753492515875349751587535025158753507515875))
 (.node 1 (.leaf 3512515875351751587535225158753527515875353251587535375158753542515875354751587535525158753557515875356251587535675158753572515875357751587535825158753587515875359251587535975158750002515825000751582500125158250017515825002251582500275158250137515825014251582501475158250152515825015751582501625158250167515825017251582501775158250182515825018751582501925158250197515825020251582502075158250212515825021751582502225158250227515825023251582502375158250242515825024751582502525158250257515825026251582502675158250272515825027751582502825158250287515825029251582502975158250302515825030751582503125158250317515825032251582503275158250332515825)
 (.leaf 337515825034251582503475158250352515825035751582503625158250367515825037251582503775158250382515825038751582503925158250397515825040251582504075158250412515825041751582504225158250427515825043251582504375158250442515825044751582504525158250457515825046251582504675158250472515825047751582504825158250487515825049251582504975158250502515825050751582505125158250517515825052251582505275158250532515825053751582505425158250547515825055251582505575158250562515825056751582505725158250577515825058251582505875158250592515825059751582506025158250607515825061251582506175158250622515825062751582506325158250637515825064251582506475158250652515825)))
 (.node 2 (.node 1 (.leaf 657515825066251582506825158250687515825069251582507125158250717515825072251582507275158250732515825073751582507425158250747515825075251582507575158250762515825076751582508125158250817515825082251582508275158250832515825083751582508425158250847515825085251582508575158250862515825086751582508725158250877515825088251582508875158250892515825089751582509025158250907515825091251582509175158250922515825093251582509425158250947515825095251582509575158250962515825096751582509725158250977515825098251582510075158251012515825103251582510375158251042515825104751582510525158251057515825106251582510675158251072515825107751582510825158251087515825)
 (.leaf 1092515825109751582511025158251107515825111251582511175158251122515825112751582511325158251267515825127251582512775158251282515825128751582512925158251297515825130251582513075158251312515825131751582513225158251327515825133251582513375158251342515825134751582513525158251357515825136251582513675158251372515825137751582513825158251387515825139251582513975158251402515825140751582514125158251417515825142251582514275158251432515825143751582514425158251447515825145251582514575158251462515825146751582514725158251477515825148251582514875158251492515825149751582515025158251507515825151251582515175158251522515825192751582519325158251937515825))
 (.node 1 (.leaf 1942515825194751582519525158251957515825196251582519675158251972515825197751582519825158251987515825199251582519975158252002515825200751582520125158252017515825202251582520275158252032515825203751582520425158252047515825205251582520575158252062515825206751582520725158252077515825208251582520875158252092515825209751582521025158252107515825211251582521175158252122515825212751582521325158252137515825214251582521475158252152515825215751582521625158252167515825217251582521775158252182515825218751582521925158252197515825223751582522425158252247515825225251582522575158252262515825226751582523025158252307515825231251582523175158252322515825)
 (.leaf 2327515825233251582523375158252342515825234751582523525158252357515825236251582523675158252372515825237751582523825158252387515825239251582523975158252402515825240751582524125158252417515825242251582524275158252432515825243751582524425158252447515825245251582524575158252462515825246751582524725158252477515825248251582524875158252492515825249751582525025158252507515825251251582525175158252522515825252751582525325158252537515825254251582525475158252552515825255751582525625158252567515825257251582525775158252582515825258751582525925158252597515825260251582526075158252612515825261751582526225158252627515825263251582526375158252642515825))))))))
 (.node 64 (.node 32 (.node 16 (.node 8 (.node 4 (.node 2 (.node 1 (.leaf 2647515825265251582526575158252662515825266751582526725158252677515825268251582526875158252692515825269751582527025158252707515825271251582527175158252722515825272751582527325158252737515825274251582527475158252752515825275751582527625158252767515825277251582527775158252782515825278751582527925158252797515825280251582528075158252812515825281751582528225158252827515825283251582528375158252842515825284751582528525158252857515825286251582528675158252872515825287751582528825158252887515825289251582528975158252902515825290751582529125158252917515825292251582529275158252932515825293751582529425158252947515825295251582529575158252962515825)
 (.leaf 2967515825297251582529775158252982515825298751582529925158252997515825300251582530075158253012515825301751582530225158253027515825303251582530375158253042515825304751582530525158253057515825306251582530675158253072515825307751582530825158253087515825309251582530975158253102515825310751582531125158253117515825312251582531275158253132515825313751582531425158253147515825315251582531575158253162515825316751582531725158253177515825318251582531875158253192515825319751582532025158253207515825321251582532175158253222515825322751582532325158253237515825324251582532475158253252515825325751582532625158253267515825327251582532775158253282515825))
 (.node 1 (.leaf 3287515825329251582532975158253302515825330751582533125158253317515825332251582533275158253332515825333751582533425158253347515825335251582533575158253362515825336751582533725158253377515825338251582533875158253392515825339751582534025158253407515825341251582534175158253422515825342751582534325158253437515825344251582534475158253452515825345751582534625158253467515825347251582534775158253482515825348751582534925158253497515825350251582535075158253512515825351751582535225158253527515825353251582535375158253542515825354751582535525158253557515825356251582535675158253572515825357751582535825158253587515825359251582535975158250002515775)
 (.leaf 7515775001251577500175157750022515775002751577500325157750037515775004251577501475157750152515775015751577501625157750167515775017251577501775157750182515775018751577501925157750197515775020251577502075157750212515775021751577502225157750227515775023251577502375157750242515775024751577502525157750257515775026251577502675157750272515775027751577502825157750287515775029251577502975157750302515775030751577503125157750317515775032251577503275157750332515775033751577503425157750347515775035251577503575157750362515775036751577503725157750377515775038251577503875157750392515775039751577504025157750407515775041251577504175157750422515775)))
 (.node 2 (.node 1 (.leaf 427515775043251577504375157750442515775044751577504525157750457515775046251577504675157750472515775047751577504825157750487515775049251577504975157750502515775050751577505125157750517515775052251577505275157750532515775053751577505425157750547515775055251577505575157750562515775056751577505725157750577515775058251577505875157750592515775059751577506025157750607515775061251577506175157750622515775062751577506325157750637515775064251577506475157750652515775065751577506625157750667515775067251577506775157750682515775068751577506925157750697515775070251577507075157750712515775071751577507225157750727515775073251577507375157750742515775)
 (.leaf 747515775075251577507575157750762515775076751577507725157750777515775078251577507875157750792515775079751577508025157750807515775081251577508175157750822515775082751577508325157750837515775084251577508475157750852515775085751577508625157750867515775087251577508775157750882515775088751577508925157750897515775090251577509075157750912515775091751577509325157750937515775094251577509475157750952515775095751577509625157750967515775097251577509775157750982515775102751577510325157751037515775104251577510475157751052515775105751577510625157751072515775107751577510825157751087515775109251577510975157751102515775110751577511125157751117515775))
 (.node 1 (.leaf 1122515775112751577511325157751137515775114251577511475157751152515775115751577512625157751267515775127251577512775157751282515775128751577512925157751297515775130251577513075157751312515775131751577513225157751327515775133251577513375157751342515775134751577513525157751357515775136251577513675157751372515775137751577513825157751387515775139251577513975157751402515775140751577514125157751417515775142251577514275157751432515775143751577514425157751447515775145251577514575157751462515775146751577514725157751477515775192751577519325157751947515775195251577519575157751962515775196751577519725157751977515775198251577519875157751992515775)
 (.leaf 1997515775200251577520075157752012515775201751577520225157752027515775203251577520375157752042515775204751577520525157752057515775206251577520675157752072515775207751577520825157752087515775209251577520975157752102515775210751577521125157752117515775212251577521275157752132515775213751577521425157752147515775215251577521575157752162515775216751577521725157752177515775218251577521875157752192515775219751577522025157752207515775221251577522375157752242515775224751577522525157752257515775226251577522675157752277515775228251577522875157752292515775229751577523025157752307515775231251577523175157752322515775232751577523325157752337515775))))
 (.node 4 (.node 2 (.node 1 (.leaf 2342515775234751577523525157752357515775236251577523675157752372515775237751577523825157752387515775239251577523975157752402515775240751577524125157752417515775242251577524275157752432515775243751577524425157752447515775245251577524575157752462515775246751577524725157752477515775248251577524875157752492515775249751577525025157752507515775251251577525175157752522515775252751577525325157752547515775255251577525575157752562515775256751577525725157752577515775258251577525875157752592515775259751577526025157752607515775261251577526175157752622515775262751577526325157752637515775264251577526475157752652515775265751577526625157752667515775)
 (.leaf 2672515775267751577526825157752687515775269251577526975157752702515775270751577527125157752717515775272251577527275157752732515775273751577527425157752747515775275251577527575157752762515775276751577527725157752777515775278251577527875157752792515775279751577528025157752807515775281251577528175157752822515775282751577528325157752837515775284251577528475157752852515775285751577528625157752867515775287251577528775157752882515775288751577528925157752897515775290251577529075157752912515775291751577529225157752927515775293251577529375157752942515775294751577529525157752957515775296251577529675157752972515775297751577529825157752987515775))
 (.node 1 (.leaf 2992515775299751577530025157753007515775301251577530175157753022515775302751577530325157753037515775304251577530475157753052515775305751577530625157753067515775307251577530775157753082515775308751577530925157753097515775310251577531075157753112515775311751577531225157753127515775313251577531375157753142515775314751577531525157753157515775316251577531675157753172515775317751577531825157753187515775319251577531975157753202515775320751577532125157753217515775322251577532275157753232515775323751577532425157753247515775325251577532575157753262515775326751577532725157753277515775328251577532875157753292515775329751577533025157753307515775)
 (.leaf 3312515775331751577533225157753327515775333251577533375157753342515775334751577533525157753357515775336251577533675157753372515775337751577533825157753387515775339251577533975157753402515775340751577534125157753417515775342251577534275157753432515775343751577534425157753447515775345251577534575157753462515775346751577534725157753477515775348251577534875157753492515775349751577535025157753507515775351251577535175157753522515775352751577535325157753537515775354251577535475157753552515775355751577535625157753567515775357251577535775157753582515775358751577535925157753597515775000251572500075157250012515725001751572500225157250027515725)))
 (.node 2 (.node 1 (.leaf 32515725003751572500425157250047515725005251572500575157250062515725016251572501675157250172515725017751572501825157250187515725019251572501975157250202515725020751572502125157250217515725022251572502275157250232515725023751572502425157250247515725025251572502575157250262515725026751572502725157250277515725028251572502875157250292515725029751572503025157250307515725031251572503175157250322515725032751572503325157250337515725034251572503475157250352515725035751572503625157250367515725037251572503775157250382515725038751572503925157250397515725040251572504075157250412515725041751572504225157250427515725043251572504375157250442515725)
 (.leaf 447515725045251572504575157250462515725046751572504725157250477515725048251572504875157250492515725049751572505025157250507515725051251572505175157250522515725052751572505325157250537515725054251572505475157250552515725055751572505625157250567515725057251572505775157250582515725058751572505925157250597515725060251572506075157250612515725061751572506225157250627515725063251572506375157250642515725064751572506525157250657515725066251572506675157250672515725067751572506825157250687515725069251572506975157250702515725070751572507125157250717515725072251572507275157250732515725073751572507425157250747515725075251572507575157250762515725))
 (.node 1 (.leaf 767515725077251572507775157250782515725078751572507925157250797515725080251572508075157250812515725081751572508225157250827515725083251572508375157250842515725084751572508525157250857515725086251572508675157250872515725087751572508825157250887515725089251572508975157250902515725090751572509125157250917515725092251572509275157250932515725093751572509425157250947515725095251572509575157250962515725096751572509725157250977515725098251572509875157251027515725103251572510375157251042515725104751572510725157251077515725108251572510875157251092515725109751572511025157251107515725111251572511175157251122515725112751572511325157251137515725)
 (.leaf 1142515725114751572511525157251157515725116251572511675157251172515725126251572512675157251272515725127751572512825157251287515725129251572512975157251302515725130751572513125157251317515725132251572513275157251332515725133751572513425157251347515725135251572513575157251362515725136751572513725157251377515725138251572513875157251392515725139751572514025157251407515725141251572514175157251422515725142751572514325157251437515725144251572514475157251452515725145751572514625157251467515725193251572519375157251942515725194751572519525157251957515725196251572519675157251972515725197751572519825157251987515725199251572519975157252002515725)))))
 (.node 8 (.node 4 (.node 2 (.node 1 (.leaf 2007515725201251572520175157252022515725202751572520325157252037515725204251572520475157252052515725205751572520625157252067515725207251572520775157252082515725208751572520925157252097515725210251572521075157252112515725211751572521225157252127515725213251572521375157252142515725214751572521525157252157515725216251572521675157252172515725217751572521825157252187515725219251572521975157252202515725220751572522125157252237515725224251572522475157252252515725225751572522775157252282515725228751572522925157252297515725230251572523075157252312515725231751572523225157252327515725233251572523375157252342515725234751572523525157252357515725)
 (.leaf 2362515725236751572523725157252377515725238251572523875157252392515725239751572524025157252407515725241251572524175157252422515725242751572524325157252437515725244251572524475157252452515725245751572524625157252467515725247251572524775157252482515725248751572524925157252497515725250251572525075157252512515725251751572525225157252527515725254251572525475157252552515725255751572525625157252567515725257251572525775157252582515725258751572525925157252597515725260251572526075157252612515725261751572526225157252627515725263251572526375157252642515725264751572526525157252657515725266251572526675157252672515725267751572526825157252687515725))
 (.node 1 (.leaf 2692515725269751572527025157252707515725271251572527175157252722515725272751572527325157252737515725274251572527475157252752515725275751572527625157252767515725277251572527775157252782515725278751572527925157252797515725280251572528075157252812515725281751572528225157252827515725283251572528375157252842515725284751572528525157252857515725286251572528675157252872515725287751572528825157252887515725289251572528975157252902515725290751572529125157252917515725292251572529275157252932515725293751572529425157252947515725295251572529575157252962515725296751572529725157252977515725298251572529875157252992515725299751572530025157253007515725)
 (.leaf 3012515725301751572530225157253027515725303251572530375157253042515725304751572530525157253057515725306251572530675157253072515725307751572530825157253087515725309251572530975157253102515725310751572531125157253117515725312251572531275157253132515725313751572531425157253147515725315251572531575157253162515725316751572531725157253177515725318251572531875157253192515725319751572532025157253207515725321251572532175157253222515725322751572532325157253237515725324251572532475157253252515725325751572532625157253267515725327251572532775157253282515725328751572532925157253297515725330251572533075157253312515725331751572533225157253327515725)))
 (.node 2 (.node 1 (.leaf 3332515725333751572533425157253347515725335251572533575157253362515725336751572533725157253377515725338251572533875157253392515725339751572534025157253407515725341251572534175157253422515725342751572534325157253437515725344251572534475157253452515725345751572534625157253467515725347251572534775157253482515725348751572534925157253497515725350251572535075157253512515725351751572535225157253527515725353251572535375157253542515725354751572535525157253557515725356251572535675157253572515725357751572535825157253587515725359251572535975157250002515675000751567500125156750017515675002251567500275156750032515675003751567500425156750047515675)
 (.leaf 52515675005751567500625156750067515675007251567500775156750082515675008751567501575156750162515675017251567501775156750182515675018751567501925156750197515675020251567502075156750212515675021751567502225156750227515675023251567502375156750242515675024751567502525156750257515675026251567502675156750272515675027751567502825156750287515675029251567502975156750302515675030751567503125156750317515675032251567503275156750332515675033751567503425156750347515675035251567503575156750362515675036751567503725156750377515675038251567503875156750392515675039751567504025156750407515675041251567504175156750422515675042751567504325156750437515675))
 (.node 1 (.leaf 442515675044751567504525156750457515675046251567504675156750472515675047751567504825156750487515675049251567504975156750502515675050751567505125156750517515675052251567505275156750532515675053751567505425156750547515675055251567505575156750562515675056751567505725156750577515675058251567505875156750592515675059751567506025156750607515675061251567506175156750622515675062751567506325156750637515675064251567506475156750652515675065751567506625156750667515675067251567506775156750682515675068751567506925156750697515675070251567507075156750712515675071751567507225156750727515675073251567507375156750742515675074751567507525156750757515675)
 (.leaf 762515675076751567507725156750777515675078251567507875156750792515675079751567508025156750807515675081251567508175156750822515675082751567508325156750837515675084251567508475156750852515675085751567508625156750867515675087251567508775156750882515675088751567508925156750897515675090251567509075156750912515675091751567509225156750927515675093251567509375156750942515675094751567509525156750957515675096251567509675156750972515675097751567509825156751067515675107251567510775156751082515675108751567510925156751097515675110251567511075156751112515675111751567511225156751127515675113251567511375156751142515675114751567511525156751157515675))))
 (.node 4 (.node 2 (.node 1 (.leaf 1162515675116751567511725156751177515675118251567511875156751262515675126751567512725156751277515675128251567512875156751292515675129751567513025156751307515675131251567513175156751322515675132751567513325156751337515675134251567513475156751352515675135751567513625156751367515675137251567513775156751382515675138751567513925156751397515675140251567514075156751412515675141751567514225156751427515675143251567514375156751442515675144751567514525156751457515675146251567516175156751932515675193751567519425156751947515675195251567519575156751962515675196751567519725156751977515675198251567519875156751992515675199751567520025156752007515675)
 (.leaf 2012515675201751567520225156752027515675203251567520375156752042515675204751567520525156752057515675206251567520675156752072515675207751567520825156752087515675209251567520975156752102515675210751567521125156752117515675212251567521275156752132515675213751567521425156752147515675215251567521575156752162515675216751567521725156752177515675218251567521875156752192515675219751567522025156752207515675221251567522275156752242515675224751567522525156752257515675226251567522675156752272515675227751567522825156752287515675229251567522975156752302515675230751567523125156752317515675232251567523275156752332515675233751567523425156752347515675))
 (.node 1 (.leaf 2352515675235751567523625156752367515675237251567523775156752382515675238751567523925156752397515675240251567524075156752412515675241751567524225156752427515675243251567524375156752442515675244751567524525156752457515675246251567524675156752472515675247751567524825156752487515675249251567524975156752502515675250751567525125156752517515675252751567525325156752537515675254251567525475156752552515675255751567525625156752567515675257251567525775156752582515675258751567525925156752597515675260251567526075156752612515675261751567526225156752627515675263251567526375156752642515675264751567526525156752657515675266251567526675156752672515675)
 (.leaf 2677515675268251567526875156752692515675269751567527025156752707515675271251567527175156752722515675272751567527325156752737515675274251567527475156752752515675275751567527625156752767515675277251567527775156752782515675278751567527925156752797515675280251567528075156752812515675281751567528225156752827515675283251567528375156752842515675284751567528525156752857515675286251567528675156752872515675287751567528825156752887515675289251567528975156752902515675290751567529125156752917515675292251567529275156752932515675293751567529425156752947515675295251567529575156752962515675296751567529725156752977515675298251567529875156752992515675)))
 (.node 2 (.node 1 (.leaf 2997515675300251567530075156753012515675301751567530225156753027515675303251567530375156753042515675304751567530525156753057515675306251567530675156753072515675307751567530825156753087515675309251567530975156753102515675310751567531125156753117515675312251567531275156753132515675313751567531425156753147515675315251567531575156753162515675316751567531725156753177515675318251567531875156753192515675319751567532025156753207515675321251567532175156753222515675322751567532325156753237515675324251567532475156753252515675325751567532625156753267515675327251567532775156753282515675328751567532925156753297515675330251567533075156753312515675)
 (.leaf 3317515675332251567533275156753332515675333751567533425156753347515675335251567533575156753362515675336751567533725156753377515675338251567533875156753392515675339751567534025156753407515675341251567534175156753422515675342751567534325156753437515675344251567534475156753452515675345751567534625156753467515675347251567534775156753482515675348751567534925156753497515675350251567535075156753512515675351751567535225156753527515675353251567535375156753542515675354751567535525156753557515675356251567535675156753572515675357751567535825156753587515675359251567535975156750002515625000751562500125156250017515625002251562500275156250032515625))
 (.node 1 (.leaf 37515625004251562500475156250052515625005751562500625156250067515625007251562500775156250082515625008751562500925156250097515625010251562501125156250132515625013751562501425156250147515625015251562501575156250162515625016751562501725156250182515625018751562501925156250197515625020251562502075156250212515625021751562502225156250227515625023251562502375156250242515625024751562502525156250257515625026251562502675156250272515625027751562502825156250287515625029251562502975156250302515625030751562503125156250317515625032251562503275156250332515625033751562503425156250347515625035251562503575156250362515625036751562503725156250377515625)
 (.leaf 382515625038751562503925156250397515625040251562504075156250412515625041751562504225156250427515625043251562504375156250442515625044751562504525156250457515625046251562504675156250472515625047751562504825156250487515625049251562504975156250502515625050751562505125156250517515625052251562505275156250532515625053751562505425156250547515625055251562505575156250562515625056751562505725156250577515625058251562505875156250592515625059751562506025156250607515625061251562506175156250622515625062751562506325156250637515625064251562506475156250652515625065751562506625156250667515625067251562506775156250682515625068751562506925156250697515625))))))
 (.node 16 (.node 8 (.node 4 (.node 2 (.node 1 (.leaf 702515625070751562507125156250717515625072251562507275156250732515625073751562507425156250747515625075251562507575156250762515625076751562507725156250777515625078251562507875156250792515625079751562508025156250807515625081251562508175156250822515625082751562508325156250837515625084251562508475156250852515625085751562508625156250867515625087251562508775156250882515625088751562508925156250897515625090251562509075156250912515625091751562509225156250927515625093251562509375156250947515625095251562509575156250962515625096751562510575156251062515625106751562510725156251077515625108251562510875156251092515625109751562511025156251107515625)
 (.leaf 1112515625111751562511225156251127515625113251562511375156251142515625114751562511525156251157515625116251562511675156251172515625117751562511825156251262515625126751562512725156251277515625128251562512875156251292515625129751562513025156251307515625131251562513175156251322515625132751562513325156251337515625134251562513475156251352515625135751562513625156251367515625137251562513775156251382515625138751562513925156251397515625140251562514075156251412515625141751562514225156251427515625143251562514375156251442515625144751562514525156251562515625156751562515725156251577515625158251562515975156251607515625161251562516175156251622515625))
 (.node 1 (.leaf 1627515625163251562516375156251642515625164751562516525156251817515625182251562519225156251927515625193251562519375156251942515625194751562519525156251957515625196251562519675156251972515625197751562519825156251987515625199251562519975156252002515625200751562520125156252017515625202251562520275156252032515625203751562520425156252047515625205251562520575156252062515625206751562520725156252077515625208251562520875156252092515625209751562521025156252107515625211251562521175156252122515625212751562521325156252137515625214251562521475156252152515625215751562521625156252167515625217251562521775156252182515625218751562521925156252197515625)
 (.leaf 2202515625220751562522125156252217515625222251562522275156252232515625223751562522425156252247515625225251562522575156252262515625226751562522725156252277515625228251562522875156252292515625229751562523025156252307515625231251562523175156252322515625232751562523325156252337515625234251562523475156252352515625235751562523625156252367515625237251562523775156252382515625238751562523925156252397515625240251562524075156252412515625241751562524225156252427515625243251562524375156252442515625244751562524525156252457515625246251562524675156252472515625247751562524825156252487515625249251562524975156252502515625250751562525125156252517515625)))
 (.node 2 (.node 1 (.leaf 2522515625252751562525325156252537515625254251562525475156252552515625255751562525625156252567515625257251562525775156252582515625258751562525925156252597515625260251562526075156252612515625261751562526225156252627515625263251562526375156252642515625264751562526525156252657515625266251562526675156252672515625267751562526825156252687515625269251562526975156252702515625270751562527125156252717515625272251562527275156252732515625273751562527425156252747515625275251562527575156252762515625276751562527725156252777515625278251562527875156252792515625279751562528025156252807515625281251562528175156252822515625282751562528325156252837515625)
 (.leaf 2842515625284751562528525156252857515625286251562528675156252872515625287751562528825156252887515625289251562528975156252902515625290751562529125156252917515625292251562529275156252932515625293751562529425156252947515625295251562529575156252962515625296751562529725156252977515625298251562529875156252992515625299751562530025156253007515625301251562530175156253022515625302751562530325156253037515625304251562530475156253052515625305751562530625156253067515625307251562530775156253082515625308751562530925156253097515625310251562531075156253112515625311751562531225156253127515625313251562531375156253142515625314751562531525156253157515625))
 (.node 1 (.leaf 3162515625316751562531725156253177515625318251562531875156253192515625319751562532025156253207515625321251562532175156253222515625322751562532325156253237515625324251562532475156253252515625325751562532625156253267515625327251562532775156253282515625328751562532925156253297515625330251562533075156253312515625331751562533225156253327515625333251562533375156253342515625334751562533525156253357515625336251562533675156253372515625337751562533825156253387515625339251562533975156253402515625340751562534125156253417515625342251562534275156253432515625343751562534425156253447515625345251562534575156253462515625346751562534725156253477515625)
 (.leaf 3482515625348751562534925156253497515625350251562535075156253512515625351751562535225156253527515625353251562535375156253542515625354751562535525156253557515625356251562535675156253572515625357751562535825156253587515625359251562535975156250002515575001251557500175155750022515575002751557500325155750037515575004251557500475155750052515575005751557500625155750067515575007251557500775155750082515575008751557500925155750097515575011751557501225155750127515575013251557501375155750142515575014751557501525155750157515575016251557501675155750172515575017751557501825155750187515575019251557501975155750202515575020751557502125155750217515575))))
 (.node 4 (.node 2 (.node 1 (.leaf 222515575022751557502325155750237515575024251557502475155750252515575025751557502625155750267515575027251557502775155750282515575028751557502925155750297515575030251557503075155750312515575031751557503225155750327515575033251557503375155750342515575034751557503525155750357515575036251557503675155750372515575037751557503825155750387515575039251557503975155750402515575040751557504125155750417515575042251557504275155750432515575043751557504425155750447515575045251557504575155750462515575046751557504725155750477515575048251557504875155750492515575049751557505025155750507515575051251557505175155750522515575052751557505325155750537515575)
 (.leaf 542515575054751557505525155750557515575056251557505675155750572515575057751557505825155750587515575059251557505975155750602515575060751557506125155750617515575062251557506275155750632515575063751557506425155750647515575065251557506575155750662515575066751557506725155750677515575068251557506875155750692515575069751557507025155750707515575071251557507175155750722515575072751557507325155750737515575074251557507475155750752515575075751557507625155750767515575077251557507775155750782515575078751557507925155750797515575080251557508075155750812515575081751557508225155750827515575083251557508375155750842515575084751557508525155750857515575))
 (.node 1 (.leaf 862515575086751557508725155750877515575088251557508875155750892515575089751557509025155750907515575091251557509175155750922515575092751557509325155750937515575094251557509475155750952515575095751557509625155750967515575105751557510625155751067515575107251557510775155751082515575108751557510925155751097515575110251557511075155751112515575111751557511225155751127515575114251557511475155751152515575115751557511625155751167515575117251557511775155751267515575127251557512775155751282515575128751557512925155751297515575130251557513075155751312515575131751557513225155751327515575133251557513375155751342515575134751557513525155751357515575)
 (.leaf 1362515575136751557513725155751377515575138251557513875155751392515575139751557514025155751407515575141251557514175155751422515575142751557514325155751437515575155751557515625155751567515575157251557515775155751582515575158751557515925155751597515575160251557516075155751612515575161751557516225155751627515575163251557516375155751642515575164751557516525155751657515575166251557518175155751822515575191751557519225155751927515575193251557519375155751942515575194751557519525155751957515575196251557519675155751972515575197751557519825155751987515575199251557519975155752002515575200751557520125155752017515575202251557520275155752032515575)))
 (.node 2 (.node 1 (.leaf 2037515575204251557520475155752052515575205751557520625155752067515575207251557520775155752082515575208751557520925155752097515575210251557521075155752112515575211751557521225155752127515575213251557521375155752142515575214751557521975155752202515575220751557522125155752217515575222251557522275155752232515575223751557522425155752247515575225251557522575155752262515575226751557522725155752277515575228251557522875155752292515575229751557523025155752307515575231251557523175155752322515575232751557523325155752337515575234251557523475155752352515575235751557523625155752367515575237251557523775155752382515575238751557523925155752397515575)
 (.leaf 2402515575240751557524125155752417515575242251557524275155752432515575243751557524425155752447515575245251557524575155752462515575246751557524725155752477515575248251557524875155752492515575249751557525025155752507515575251251557525175155752522515575252751557525325155752537515575254251557525475155752552515575255751557525625155752567515575257251557525775155752582515575258751557525925155752597515575260251557526075155752612515575261751557526225155752627515575263251557526375155752642515575264751557526525155752657515575266251557526675155752672515575267751557526825155752687515575269251557526975155752702515575270751557527125155752717515575))
 (.node 1 (.leaf 2722515575272751557527325155752737515575274251557527475155752752515575275751557527625155752767515575277251557527775155752782515575278751557527925155752797515575280251557528075155752812515575281751557528225155752827515575283251557528375155752842515575284751557528525155752857515575286251557528675155752872515575287751557528825155752887515575289251557528975155752902515575290751557529125155752917515575292251557529275155752932515575293751557529425155752947515575295251557529575155752962515575296751557529725155752977515575298251557529875155752992515575299751557530025155753007515575301251557530175155753022515575302751557530325155753037515575)
 (.leaf 3042515575304751557530525155753057515575306251557530675155753072515575307751557530825155753087515575309251557530975155753102515575310751557531125155753117515575312251557531275155753132515575313751557531425155753147515575315251557531575155753162515575316751557531725155753177515575318251557531875155753192515575319751557532025155753207515575321251557532175155753222515575322751557532325155753237515575324251557532475155753252515575325751557532625155753267515575327251557532775155753282515575328751557532925155753297515575330251557533075155753312515575331751557533225155753327515575333251557533375155753342515575334751557533525155753357515575)))))
 (.node 8 (.node 4 (.node 2 (.node 1 (.leaf 3362515575336751557533725155753377515575338251557533875155753392515575339751557534025155753407515575341251557534175155753422515575342751557534325155753437515575344251557534475155753452515575345751557534625155753467515575347251557534775155753482515575348751557534925155753497515575350251557535075155753512515575351751557535225155753527515575353251557535375155753542515575354751557535525155753557515575356251557535675155753572515575357751557535825155753587515575359251557535975155750002515525001751552500225155250027515525003751552500425155250047515525005251552500575155250062515525006751552500725155250077515525012251552501275155250132515525)
 (.leaf 137515525014251552501475155250152515525015751552501625155250167515525017251552501775155250182515525018751552501925155250197515525020251552502075155250212515525021751552502225155250227515525023251552502375155250242515525024751552502525155250257515525026251552502675155250272515525027751552502825155250287515525029251552502975155250302515525030751552503125155250317515525032251552503275155250332515525033751552503425155250347515525035251552503575155250362515525036751552503725155250377515525038251552503875155250392515525039751552504025155250407515525041251552504175155250422515525042751552504325155250437515525044251552504475155250452515525))
 (.node 1 (.leaf 457515525046251552504675155250472515525047751552504825155250487515525049251552504975155250502515525050751552505125155250517515525052251552505275155250532515525053751552505425155250547515525055251552505575155250562515525056751552505725155250577515525058251552505875155250592515525059751552506025155250607515525061251552506175155250622515525062751552506325155250637515525064251552506475155250652515525065751552506625155250667515525067251552506775155250682515525068751552506925155250697515525070251552507075155250712515525071751552507225155250727515525073251552507375155250742515525074751552507525155250757515525076251552507675155250772515525)
 (.leaf 777515525078251552507875155250792515525079751552508025155250807515525081251552508175155250822515525082751552508325155250837515525084251552508475155250852515525085751552508625155250867515525087251552508775155250882515525088751552508925155250897515525090251552509075155250912515525091751552509225155250927515525093751552509425155250947515525095251552509575155250962515525102251552510275155251032515525103751552510425155251047515525105251552510575155251062515525106751552510725155251077515525108251552510875155251092515525109751552511025155251107515525111251552511175155251122515525112751552511325155251147515525115251552511575155251162515525)))
 (.node 2 (.node 1 (.leaf 1277515525128251552512875155251292515525129751552513025155251307515525131251552513175155251322515525132751552513325155251337515525134251552513475155251352515525135751552513625155251367515525137251552513775155251382515525138751552513925155251397515525140251552515575155251562515525156751552515725155251577515525158251552515875155251592515525159751552516025155251607515525161251552516175155251622515525162751552516325155251637515525164251552516475155251652515525165751552516625155251917515525192251552519275155251932515525193751552519425155251947515525195251552519575155251962515525196751552519725155251977515525198251552519875155251992515525)
 (.leaf 1997515525200251552520075155252012515525201751552520475155252052515525205751552520625155252067515525207251552520775155252082515525208751552520925155252097515525210251552521075155252112515525211751552521225155252127515525213251552521375155252142515525214751552521575155252167515525217251552521775155252197515525220251552522075155252212515525221751552522225155252227515525223251552522375155252242515525224751552522525155252257515525226251552522675155252272515525227751552522825155252287515525229251552522975155252302515525230751552523125155252317515525232251552523275155252332515525233751552523425155252347515525235251552523575155252362515525))
 (.node 1 (.leaf 2367515525237251552523775155252382515525238751552523925155252397515525240251552524075155252412515525241751552524225155252427515525243251552524375155252442515525244751552524525155252457515525246251552524675155252472515525247751552524825155252487515525249251552524975155252502515525250751552525125155252517515525252251552525275155252532515525253751552525425155252547515525255251552525575155252562515525256751552525725155252577515525258251552525875155252592515525259751552526025155252607515525261251552526175155252622515525262751552526325155252637515525264251552526475155252652515525265751552526625155252667515525267251552526775155252682515525)
 (.leaf 2687515525269251552526975155252702515525270751552527125155252717515525272251552527275155252732515525273751552527425155252747515525275251552527575155252762515525276751552527725155252777515525278251552527875155252792515525279751552528025155252807515525281251552528175155252822515525282751552528325155252837515525284251552528475155252852515525285751552528625155252867515525287251552528775155252882515525288751552528925155252897515525290251552529075155252912515525291751552529225155252927515525293251552529375155252942515525294751552529525155252957515525296251552529675155252972515525297751552529825155252987515525299251552529975155253002515525))))
 (.node 4 (.node 2 (.node 1 (.leaf 3007515525301251552530175155253022515525302751552530325155253037515525304251552530475155253052515525305751552530625155253067515525307251552530775155253082515525308751552530925155253097515525310251552531075155253112515525311751552531225155253127515525313251552531375155253142515525314751552531525155253157515525316251552531675155253172515525317751552531825155253187515525319251552531975155253202515525320751552532125155253217515525322251552532275155253232515525323751552532425155253247515525325251552532575155253262515525326751552532725155253277515525328251552532875155253292515525329751552533025155253307515525331251552533175155253322515525)
 (.leaf 3327515525333251552533375155253342515525334751552533525155253357515525336251552533675155253372515525337751552533825155253387515525339251552533975155253402515525340751552534125155253417515525342251552534275155253432515525343751552534425155253447515525345251552534575155253462515525346751552534725155253477515525348251552534875155253492515525349751552535025155253507515525351251552535175155253522515525352751552535325155253537515525354251552535475155253552515525355751552535625155253567515525357251552535775155253582515525358751552535925155253597515525004251547500475154750052515475005751547500625154750067515475007251547501325154750137515475))
 (.node 1 (.leaf 142515475014751547501525154750157515475016251547501675154750172515475017751547501825154750187515475019251547501975154750202515475020751547502125154750217515475022251547502275154750232515475023751547502425154750247515475025251547502575154750262515475026751547502725154750277515475028251547502875154750292515475029751547503025154750307515475031251547503175154750322515475032751547503325154750337515475034251547503475154750352515475035751547503625154750367515475037251547503775154750382515475038751547503925154750397515475040251547504075154750412515475041751547504225154750427515475043251547504375154750442515475044751547504525154750457515475)
 (.leaf 462515475046751547504725154750477515475048251547504875154750492515475049751547505025154750507515475051251547505175154750522515475052751547505325154750537515475054251547505475154750552515475055751547505625154750567515475057251547505775154750582515475058751547505925154750597515475060251547506075154750612515475061751547506225154750627515475063251547506375154750642515475064751547506525154750657515475066251547506675154750672515475067751547506825154750687515475069251547506975154750702515475070751547507125154750717515475072251547507275154750732515475073751547507425154750747515475075251547507575154750762515475076751547507725154750777515475)))
 (.node 2 (.node 1 (.leaf 782515475078751547507925154750797515475080251547508075154750812515475081751547508225154750827515475083251547508375154750842515475084751547508525154750857515475086251547508675154750872515475087751547508825154750887515475089251547508975154750902515475090751547509125154750917515475092251547509275154750937515475094251547509475154750952515475095751547509625154750967515475097251547509775154751017515475102251547510275154751032515475103751547510425154751047515475105251547510575154751062515475106751547510725154751077515475108251547510875154751092515475109751547511025154751107515475111251547511175154751122515475112751547511325154751137515475)
 (.leaf 1142515475116251547512775154751282515475128751547512925154751297515475130251547513075154751312515475131751547513225154751327515475133251547513375154751342515475134751547513525154751357515475136251547513675154751372515475137751547513825154751387515475139251547515625154751567515475157251547515775154751582515475158751547515925154751597515475160251547516075154751612515475161751547516225154751627515475163251547516375154751642515475164751547516525154751657515475166251547519075154751912515475191751547519225154751927515475193251547519375154751942515475194751547519525154751957515475196251547519675154751972515475197751547519825154751987515475))
 (.node 1 (.leaf 1992515475199751547520025154752007515475201251547520425154752047515475205251547520575154752062515475206751547520725154752077515475208251547520875154752092515475209751547521025154752107515475211251547521175154752122515475212751547521325154752137515475214251547521475154752157515475216751547521725154752177515475218251547521875154752192515475219751547522025154752207515475221251547522175154752222515475222751547522325154752237515475224251547522475154752252515475225751547522625154752267515475227251547522775154752282515475228751547522925154752297515475230251547523075154752312515475231751547523225154752327515475233251547523375154752342515475)
 (.leaf 2347515475235251547523575154752362515475236751547523725154752377515475238251547523875154752392515475239751547524025154752407515475241251547524175154752422515475242751547524325154752437515475244251547524475154752452515475245751547524625154752467515475247251547524775154752482515475248751547524925154752497515475250251547525075154752512515475251751547525225154752527515475253251547525375154752542515475254751547525525154752557515475256251547525675154752572515475257751547525825154752587515475259251547525975154752602515475260751547526125154752617515475262251547526275154752632515475263751547526425154752647515475265251547526575154752662515475)))))))
 (.node 32 (.node 16 (.node 8 (.node 4 (.node 2 (.node 1 (.leaf 2667515475267251547526775154752682515475268751547526925154752697515475270251547527075154752712515475271751547527225154752727515475273251547527375154752742515475274751547527525154752757515475276251547527675154752772515475277751547527825154752787515475279251547527975154752802515475280751547528125154752817515475282251547528275154752832515475283751547528425154752847515475285251547528575154752862515475286751547528725154752877515475288251547528875154752892515475289751547529025154752907515475291251547529175154752922515475292751547529325154752937515475294251547529475154752952515475295751547529625154752967515475297251547529775154752982515475)
 (.leaf 2987515475299251547529975154753002515475300751547530125154753017515475302251547530275154753032515475303751547530425154753047515475305251547530575154753062515475306751547530725154753077515475308251547530875154753092515475309751547531025154753107515475311251547531175154753122515475312751547531325154753137515475314251547531475154753152515475315751547531625154753167515475317251547531775154753182515475318751547531925154753197515475320251547532075154753212515475321751547532225154753227515475323251547532375154753242515475324751547532525154753257515475326251547532675154753272515475327751547532825154753287515475329251547532975154753302515475))
 (.node 1 (.leaf 3307515475331251547533175154753322515475332751547533325154753337515475334251547533475154753352515475335751547533625154753367515475337251547533775154753382515475338751547533925154753397515475340251547534075154753412515475341751547534225154753427515475343251547534375154753442515475344751547534525154753457515475346251547534675154753472515475347751547534825154753487515475349251547534975154753502515475350751547535125154753517515475352251547535275154753532515475353751547535425154753547515475355251547535575154753562515475356751547535725154753577515475358251547535875154753592515475359751547500575154250062515425006751542500725154250147515425)
 (.leaf 152515425016751542501725154250187515425019251542501975154250202515425020751542502125154250217515425022251542502275154250232515425023751542502425154250247515425025251542502575154250262515425026751542502725154250277515425028251542502875154250292515425029751542503025154250307515425031251542503175154250322515425032751542503325154250337515425034251542503475154250352515425035751542503625154250367515425037251542503775154250382515425038751542503925154250397515425040251542504075154250412515425041751542504225154250427515425043251542504375154250442515425044751542504525154250457515425046251542504675154250472515425047751542504825154250487515425)))
 (.node 2 (.node 1 (.leaf 492515425049751542505025154250507515425051251542505175154250522515425052751542505325154250537515425054251542505475154250552515425055751542505625154250567515425057251542505775154250582515425058751542505925154250597515425060251542506075154250612515425061751542506225154250627515425063251542506375154250642515425064751542506525154250657515425066251542506675154250672515425067751542506825154250687515425069251542506975154250702515425070751542507125154250717515425072251542507275154250732515425073751542507425154250747515425075251542507575154250762515425076751542507725154250777515425078251542507875154250792515425079751542508025154250807515425)
 (.leaf 812515425081751542508225154250827515425083251542508375154250842515425084751542508525154250857515425086251542508675154250872515425087751542508825154250887515425089251542508975154250902515425090751542509125154250917515425092251542509375154250942515425094751542509525154250957515425096251542509675154250972515425097751542509825154251022515425102751542510325154251037515425104251542510475154251052515425105751542510625154251067515425107251542510775154251082515425108751542510925154251097515425110251542511075154251112515425111751542511225154251127515425113251542511375154251142515425114751542512775154251282515425128751542512925154251297515425))
 (.node 1 (.leaf 1302515425130751542513125154251317515425132251542513275154251332515425133751542513425154251347515425135251542513575154251362515425136751542513725154251377515425138251542513875154251392515425139751542515725154251577515425158251542515875154251592515425159751542516025154251607515425161251542516175154251622515425162751542516325154251637515425164251542516475154251652515425190251542519075154251912515425191751542519225154251927515425193251542519375154251942515425194751542519525154251957515425196251542519675154251972515425197751542519825154251987515425199251542519975154252002515425200751542520125154252032515425203751542520425154252047515425)
 (.leaf 2052515425205751542520625154252067515425207251542520775154252082515425208751542520925154252097515425210251542521075154252112515425211751542521225154252127515425213251542521375154252142515425214751542521525154252157515425216251542521725154252177515425218251542521875154252192515425219751542522025154252207515425221251542522175154252222515425222751542522325154252237515425224251542522475154252252515425225751542522625154252267515425227251542522775154252282515425228751542522925154252297515425230251542523075154252312515425231751542523225154252327515425233251542523375154252342515425234751542523525154252357515425236251542523675154252372515425))))
 (.node 4 (.node 2 (.node 1 (.leaf 2377515425238251542523875154252392515425239751542524025154252407515425241251542524175154252422515425242751542524325154252437515425244251542524475154252452515425245751542524625154252467515425247251542524775154252482515425248751542524925154252497515425250251542525075154252512515425251751542525225154252527515425253251542525375154252542515425254751542525525154252557515425256251542525675154252572515425257751542525825154252587515425259251542525975154252602515425260751542526125154252617515425262251542526275154252632515425263751542526425154252647515425265251542526575154252662515425266751542526725154252677515425268251542526875154252692515425)
 (.leaf 2697515425270251542527075154252712515425271751542527225154252727515425273251542527375154252742515425274751542527525154252757515425276251542527675154252772515425277751542527825154252787515425279251542527975154252802515425280751542528125154252817515425282251542528275154252832515425283751542528425154252847515425285251542528575154252862515425286751542528725154252877515425288251542528875154252892515425289751542529025154252907515425291251542529175154252922515425292751542529325154252937515425294251542529475154252952515425295751542529625154252967515425297251542529775154252982515425298751542529925154252997515425300251542530075154253012515425))
 (.node 1 (.leaf 3017515425302251542530275154253032515425303751542530425154253047515425305251542530575154253062515425306751542530725154253077515425308251542530875154253092515425309751542531025154253107515425311251542531175154253122515425312751542531325154253137515425314251542531475154253152515425315751542531625154253167515425317251542531775154253182515425318751542531925154253197515425320251542532075154253212515425321751542532225154253227515425323251542532375154253242515425324751542532525154253257515425326251542532675154253272515425327751542532825154253287515425329251542532975154253302515425330751542533125154253317515425332251542533275154253332515425)
 (.leaf 3337515425334251542533475154253352515425335751542533625154253367515425337251542533775154253382515425338751542533925154253397515425340251542534075154253412515425341751542534225154253427515425343251542534375154253442515425344751542534525154253457515425346251542534675154253472515425347751542534825154253487515425349251542534975154253502515425350751542535125154253517515425352251542535275154253532515425353751542535425154253547515425355251542535575154253562515425356751542535725154253577515425358251542500825153750087515375009251537500975153750192515375019751537502025153750207515375021251537502175153750222515375022751537502325153750237515375)))
 (.node 2 (.node 1 (.leaf 242515375024751537502525153750257515375026251537502675153750272515375027751537502825153750287515375029251537502975153750302515375030751537503125153750317515375032251537503275153750332515375033751537503425153750347515375035251537503575153750362515375036751537503725153750377515375038251537503875153750392515375039751537504025153750407515375041251537504175153750422515375042751537504325153750437515375044251537504475153750452515375045751537504625153750467515375047251537504775153750482515375048751537504925153750497515375050251537505075153750512515375051751537505225153750527515375053251537505375153750542515375054751537505525153750557515375)
 (.leaf 562515375056751537505725153750577515375058251537505875153750592515375059751537506025153750607515375061251537506175153750622515375062751537506325153750637515375064251537506475153750652515375065751537506625153750667515375067251537506775153750682515375068751537506925153750697515375070251537507075153750712515375071751537507225153750727515375073251537507375153750742515375074751537507525153750757515375076251537507675153750772515375077751537507825153750787515375079251537507975153750802515375080751537508125153750817515375082251537508275153750832515375083751537508425153750847515375085251537508575153750862515375086751537508725153750877515375))
 (.node 1 (.leaf 882515375088751537508925153750897515375090251537509125153750927515375093251537509375153750942515375094751537509525153750957515375096251537509675153750972515375097751537509825153750987515375099251537509975153751022515375102751537510325153751072515375107751537510825153751087515375109251537510975153751102515375110751537511125153751117515375112251537511275153751132515375113751537511425153751147515375115251537512825153751287515375129251537512975153751302515375130751537513125153751317515375132251537513275153751332515375133751537513425153751347515375135251537513575153751362515375136751537513725153751377515375138251537513875153751392515375)
 (.leaf 1572515375157751537515825153751587515375159251537515975153751602515375160751537516125153751617515375162251537516275153751632515375188251537518875153751892515375189751537519025153751907515375191251537519175153751922515375192751537519325153751937515375194251537519475153751952515375195751537519625153751967515375197251537519775153751982515375198751537519925153751997515375200251537520075153752022515375202751537520325153752037515375204251537520475153752052515375205751537520625153752067515375207251537520775153752082515375208751537520925153752097515375210251537521075153752112515375211751537521225153752127515375213251537521375153752142515375)))))
 (.node 8 (.node 4 (.node 2 (.node 1 (.leaf 2147515375215251537521575153752162515375216751537521725153752177515375218251537521875153752192515375219751537522025153752207515375221251537522175153752222515375222751537522325153752237515375224251537522475153752252515375225751537522625153752267515375227251537522775153752282515375228751537522925153752297515375230251537523075153752312515375231751537523225153752327515375233251537523375153752342515375234751537523525153752357515375236251537523675153752372515375237751537523825153752387515375239251537523975153752402515375240751537524125153752417515375242251537524275153752432515375243751537524425153752447515375245251537524575153752462515375)
 (.leaf 2467515375247251537524775153752482515375248751537524925153752497515375250251537525075153752512515375251751537525225153752527515375253251537525375153752542515375254751537525525153752557515375256251537525675153752572515375257751537525825153752587515375259251537525975153752602515375260751537526125153752617515375262251537526275153752632515375263751537526425153752647515375265251537526575153752662515375266751537526725153752677515375268251537526875153752692515375269751537527025153752707515375271251537527175153752722515375272751537527325153752737515375274251537527475153752752515375275751537527625153752767515375277251537527775153752782515375))
 (.node 1 (.leaf 2787515375279251537527975153752802515375280751537528125153752817515375282251537528275153752832515375283751537528425153752847515375285251537528575153752862515375286751537528725153752877515375288251537528875153752892515375289751537529025153752907515375291251537529175153752922515375292751537529325153752937515375294251537529475153752952515375295751537529625153752967515375297251537529775153752982515375298751537529925153752997515375300251537530075153753012515375301751537530225153753027515375303251537530375153753042515375304751537530525153753057515375306251537530675153753072515375307751537530825153753087515375309251537530975153753102515375)
 (.leaf 3107515375311251537531175153753122515375312751537531325153753137515375314251537531475153753152515375315751537531625153753167515375317251537531775153753182515375318751537531925153753197515375320251537532075153753212515375321751537532225153753227515375323251537532375153753242515375324751537532525153753257515375326251537532675153753272515375327751537532825153753287515375329251537532975153753302515375330751537533125153753317515375332251537533275153753332515375333751537533425153753347515375335251537533575153753362515375336751537533725153753377515375338251537533875153753392515375339751537534025153753407515375341251537534175153753422515375)))
 (.node 2 (.node 1 (.leaf 3427515375343251537534375153753442515375344751537534525153753457515375346251537534675153753472515375347751537534825153753487515375349251537534975153753502515375350751537535125153753517515375352251537535275153753532515375353751537535425153753547515375355251537535575153753562515375356751537535725153753577515375358251537535875153750082515325008751532500925153250097515325010251532501075153250112515325015751532501625153250167515325017251532501775153250182515325018751532501925153250197515325020251532502075153250212515325021751532502225153250227515325023251532502375153250242515325024751532502525153250257515325026251532502675153250272515325)
 (.leaf 277515325028251532502875153250292515325029751532503025153250307515325031251532503175153250322515325032751532503325153250337515325034251532503475153250352515325035751532503625153250367515325037251532503775153250382515325038751532503925153250397515325040251532504075153250412515325041751532504225153250427515325043251532504375153250442515325044751532504525153250457515325046251532504675153250472515325047751532504825153250487515325049251532504975153250502515325050751532505125153250517515325052251532505275153250532515325053751532505425153250547515325055251532505575153250562515325056751532505725153250577515325058251532505875153250592515325))
 (.node 1 (.leaf 597515325060251532506075153250612515325061751532506225153250627515325063251532506375153250642515325064751532506525153250657515325066251532506675153250672515325067751532506825153250687515325069251532506975153250702515325070751532507125153250717515325072251532507275153250732515325073751532507425153250747515325075251532507575153250762515325076751532507725153250777515325078251532507875153250792515325079751532508025153250807515325081251532508175153250822515325082751532508325153250837515325084251532508475153250852515325085751532508625153250867515325087251532508775153250882515325088751532508925153250942515325094751532509525153250987515325)
 (.leaf 1017515325102251532510275153251032515325108251532510875153251092515325109751532511025153251107515325111251532511175153251122515325112751532511325153251137515325114251532511475153251152515325128751532512925153251297515325130251532513075153251312515325131751532513225153251327515325133251532513375153251342515325134751532513525153251357515325136251532513675153251372515325137751532513825153251387515325159751532516075153251612515325161751532518725153251877515325188251532518875153251892515325189751532519025153251907515325191251532519175153251922515325192751532519325153251937515325194251532519475153251952515325195751532519625153251967515325))))
 (.node 4 (.node 2 (.node 1 (.leaf 1972515325197751532519825153251987515325199251532519975153252012515325201751532520225153252027515325203251532520375153252042515325204751532520525153252057515325206251532520675153252072515325207751532520825153252087515325209251532520975153252102515325210751532521125153252117515325212251532521275153252132515325213751532521425153252147515325215251532521575153252162515325216751532521725153252177515325218251532521875153252192515325219751532522025153252207515325221251532522175153252222515325222751532522325153252237515325224251532522475153252252515325225751532522625153252267515325227251532522775153252282515325228751532522925153252297515325)
 (.leaf 2302515325230751532523125153252317515325232251532523275153252332515325233751532523425153252347515325235251532523575153252362515325236751532523725153252377515325238251532523875153252392515325239751532524025153252407515325241251532524175153252422515325242751532524325153252437515325244251532524475153252452515325245751532524625153252467515325247251532524775153252482515325248751532524925153252497515325250251532525075153252512515325251751532525225153252527515325253251532525375153252542515325254751532525525153252557515325256251532525675153252572515325257751532525825153252587515325259251532525975153252602515325260751532526125153252617515325))
 (.node 1 (.leaf 2622515325262751532526325153252637515325264251532526475153252652515325265751532526625153252667515325267251532526775153252682515325268751532526925153252697515325270251532527075153252712515325271751532527225153252727515325273251532527375153252742515325274751532527525153252757515325276251532527675153252772515325277751532527825153252787515325279251532527975153252802515325280751532528125153252817515325282251532528275153252832515325283751532528425153252847515325285251532528575153252862515325286751532528725153252877515325288251532528875153252892515325289751532529025153252907515325291251532529175153252922515325292751532529325153252937515325)
 (.leaf 2942515325294751532529525153252957515325296251532529675153252972515325297751532529825153252987515325299251532529975153253002515325300751532530125153253017515325302251532530275153253032515325303751532530425153253047515325305251532530575153253062515325306751532530725153253077515325308251532530875153253092515325309751532531025153253107515325311251532531175153253122515325312751532531325153253137515325314251532531475153253152515325315751532531625153253167515325317251532531775153253182515325318751532531925153253197515325320251532532075153253212515325321751532532225153253227515325323251532532375153253242515325324751532532525153253257515325)))
 (.node 2 (.node 1 (.leaf 3262515325326751532532725153253277515325328251532532875153253292515325329751532533025153253307515325331251532533175153253322515325332751532533325153253337515325334251532533475153253352515325335751532533625153253367515325337251532533775153253382515325338751532533925153253397515325340251532534075153253412515325341751532534225153253427515325343251532534375153253442515325344751532534525153253457515325346251532534675153253472515325347751532534825153253487515325349251532534975153253502515325350751532535125153253517515325352251532535275153253532515325353751532535425153253547515325355251532535575153253562515325356751532535725153253577515325)
 (.leaf 3582515325358751532535925153250152515275015751527501625152750167515275017251527501775152750182515275018751527501925152750197515275020251527502075152750212515275021751527502225152750227515275023251527502375152750242515275024751527502525152750257515275026251527502675152750272515275027751527502825152750287515275029251527502975152750302515275030751527503125152750317515275032251527503275152750332515275033751527503425152750347515275035251527503575152750362515275036751527503725152750377515275038251527503875152750392515275039751527504025152750407515275041251527504175152750422515275042751527504325152750437515275044251527504475152750452515275))
 (.node 1 (.leaf 457515275046251527504675152750472515275047751527504825152750487515275049251527504975152750502515275050751527505125152750517515275052251527505275152750532515275053751527505425152750547515275055251527505575152750562515275056751527505725152750577515275058251527505875152750592515275059751527506025152750607515275061251527506175152750622515275062751527506325152750637515275064251527506475152750652515275065751527506625152750667515275067251527506775152750682515275068751527506925152750697515275070251527507075152750712515275071751527507225152750727515275073251527507375152750742515275074751527507525152750757515275076251527507675152750772515275)
 (.leaf 777515275078251527507875152750792515275079751527508025152750807515275081251527508175152750822515275082751527508325152750837515275084251527508475152750852515275085751527508625152750867515275087251527508775152750882515275088751527508925152750962515275096751527509725152750977515275098251527510175152751022515275105751527510875152751092515275109751527511025152751107515275111251527511175152751122515275112751527511325152751137515275114251527511475152751152515275129751527513025152751307515275131251527513175152751322515275132751527513325152751337515275134251527513475152751352515275135751527513625152751367515275137251527513775152751382515275))))))
 (.node 16 (.node 8 (.node 4 (.node 2 (.node 1 (.leaf 1862515275186751527518725152751877515275188251527518875152751892515275189751527519025152751907515275191251527519175152751922515275192751527519325152751937515275194251527519475152751952515275195751527519625152751967515275197251527519775152751982515275198751527520125152752017515275202251527520275152752032515275203751527520425152752047515275205251527520575152752062515275206751527520725152752077515275208251527520875152752092515275209751527521025152752107515275211251527521175152752122515275212751527521325152752137515275214251527521475152752152515275215751527521625152752167515275217251527521775152752182515275218751527521925152752197515275)
 (.leaf 2202515275220751527522125152752217515275222251527522275152752232515275223751527522425152752247515275225251527522575152752262515275226751527522725152752277515275228251527522875152752292515275229751527523025152752307515275231251527523175152752322515275232751527523325152752337515275234251527523475152752352515275235751527523625152752367515275237251527523775152752382515275238751527523925152752397515275240251527524075152752412515275241751527524225152752427515275243251527524375152752442515275244751527524525152752457515275246251527524675152752472515275247751527524825152752487515275249251527524975152752502515275250751527525125152752517515275))
 (.node 1 (.leaf 2522515275252751527525325152752537515275254251527525475152752552515275255751527525625152752567515275257251527525775152752582515275258751527525925152752597515275260251527526075152752612515275261751527526225152752627515275263251527526375152752642515275264751527526525152752657515275266251527526675152752672515275267751527526825152752687515275269251527526975152752702515275270751527527125152752717515275272251527527275152752732515275273751527527425152752747515275275251527527575152752762515275276751527527725152752777515275278251527527875152752792515275279751527528025152752807515275281251527528175152752822515275282751527528325152752837515275)
 (.leaf 2842515275284751527528525152752857515275286251527528675152752872515275287751527528825152752887515275289251527528975152752902515275290751527529125152752917515275292251527529275152752932515275293751527529425152752947515275295251527529575152752962515275296751527529725152752977515275298251527529875152752992515275299751527530025152753007515275301251527530175152753022515275302751527530325152753037515275304251527530475152753052515275305751527530625152753067515275307251527530775152753082515275308751527530925152753097515275310251527531075152753112515275311751527531225152753127515275313251527531375152753142515275314751527531525152753157515275)))
 (.node 2 (.node 1 (.leaf 3162515275316751527531725152753177515275318251527531875152753192515275319751527532025152753207515275321251527532175152753222515275322751527532325152753237515275324251527532475152753252515275325751527532625152753267515275327251527532775152753282515275328751527532925152753297515275330251527533075152753312515275331751527533225152753327515275333251527533375152753342515275334751527533525152753357515275336251527533675152753372515275337751527533825152753387515275339251527533975152753402515275340751527534125152753417515275342251527534275152753432515275343751527534425152753447515275345251527534575152753462515275346751527534725152753477515275)
 (.leaf 3482515275348751527534925152753497515275350251527535075152753512515275351751527535225152753527515275353251527535375152753542515275354751527535525152753557515275356251527535675152753572515275357751527535825152753587515275359251527535975152750142515225014751522501525152250157515225016251522501675152250172515225017751522501825152250187515225019251522501975152250202515225020751522502125152250217515225022251522502275152250232515225023751522502425152250247515225025251522502575152250262515225026751522502725152250277515225028251522502875152250292515225029751522503025152250307515225031251522503175152250322515225032751522503325152250337515225))
 (.node 1 (.leaf 342515225034751522503525152250357515225036251522503675152250372515225037751522503825152250387515225039251522503975152250402515225040751522504125152250417515225042251522504275152250432515225043751522504425152250447515225045251522504575152250462515225046751522504725152250477515225048251522504875152250492515225049751522505025152250507515225051251522505175152250522515225052751522505325152250537515225054251522505475152250552515225055751522505625152250567515225057251522505775152250582515225058751522505925152250597515225060251522506075152250612515225061751522506225152250627515225063251522506375152250642515225064751522506525152250657515225)
 (.leaf 662515225066751522506725152250677515225068251522506875152250692515225069751522507025152250707515225071251522507175152250722515225072751522507325152250737515225074251522507475152250752515225075751522507625152250767515225077251522507775152250782515225078751522507925152250797515225080251522508075152250812515225081751522508225152250827515225083251522508375152250842515225084751522508525152250857515225086251522508675152250872515225087751522509625152250967515225097251522509775152250997515225100251522510075152251017515225102251522510275152251032515225103751522510425152251047515225105251522510575152251062515225106751522510725152251107515225))))
 (.node 4 (.node 2 (.node 1 (.leaf 1112515225111751522511225152251127515225113251522511375152251152515225115751522512975152251302515225130751522513125152251317515225132251522513275152251332515225133751522513425152251347515225135251522513575152251362515225136751522513725152251377515225146751522514725152251727515225173251522517375152251852515225185751522518625152251867515225187251522518775152251882515225188751522518925152251897515225190251522519075152251912515225191751522519225152251927515225193251522519375152251942515225194751522519525152251957515225196251522519675152251972515225197751522519825152252012515225201751522520225152252027515225203251522520375152252042515225)
 (.leaf 2047515225205251522520575152252062515225206751522520725152252077515225208251522520875152252092515225209751522521025152252107515225211251522521175152252122515225212751522521325152252137515225214251522521475152252152515225215751522521625152252167515225217251522521775152252182515225218751522521925152252197515225220251522522075152252212515225221751522522225152252227515225223251522522375152252242515225224751522522525152252257515225226251522522675152252272515225227751522522825152252287515225229251522522975152252302515225230751522523125152252317515225232251522523275152252332515225233751522523425152252347515225235251522523575152252362515225))
 (.node 1 (.leaf 2367515225237251522523775152252382515225238751522523925152252397515225240251522524075152252412515225241751522524225152252427515225243251522524375152252442515225244751522524525152252457515225246251522524675152252472515225247751522524825152252487515225249251522524975152252502515225250751522525125152252517515225252251522525275152252532515225253751522525425152252547515225255251522525575152252562515225256751522525725152252577515225258251522525875152252592515225259751522526025152252607515225261251522526175152252622515225262751522526325152252637515225264251522526475152252652515225265751522526625152252667515225267251522526775152252682515225)
 (.leaf 2687515225269251522526975152252702515225270751522527125152252717515225272251522527275152252732515225273751522527425152252747515225275251522527575152252762515225276751522527725152252777515225278251522527875152252792515225279751522528025152252807515225281251522528175152252822515225282751522528325152252837515225284251522528475152252852515225285751522528625152252867515225287251522528775152252882515225288751522528925152252897515225290251522529075152252912515225291751522529225152252927515225293251522529375152252942515225294751522529525152252957515225296251522529675152252972515225297751522529825152252987515225299251522529975152253002515225)))
 (.node 2 (.node 1 (.leaf 3007515225301251522530175152253022515225302751522530325152253037515225304251522530475152253052515225305751522530625152253067515225307251522530775152253082515225308751522530925152253097515225310251522531075152253112515225311751522531225152253127515225313251522531375152253142515225314751522531525152253157515225316251522531675152253172515225317751522531825152253187515225319251522531975152253202515225320751522532125152253217515225322251522532275152253232515225323751522532425152253247515225325251522532575152253262515225326751522532725152253277515225328251522532875152253292515225329751522533025152253307515225331251522533175152253322515225)
 (.leaf 3327515225333251522533375152253342515225334751522533525152253357515225336251522533675152253372515225337751522533825152253387515225339251522533975152253402515225340751522534125152253417515225342251522534275152253432515225344251522534475152253452515225345751522534625152253467515225347251522534775152253482515225348751522534925152253497515225350251522535075152253512515225351751522535225152253527515225353251522535375152253542515225354751522535525152253557515225356251522535675152253582515225358751522535925152250137515175014251517501475151750152515175015751517501625151750167515175017251517501775151750182515175018751517501925151750197515175))
 (.node 1 (.leaf 202515175020751517502125151750217515175022251517502275151750232515175023751517502425151750247515175025251517502575151750262515175026751517502725151750277515175028251517502875151750292515175029751517503025151750307515175031251517503175151750322515175032751517503325151750337515175034251517503475151750352515175035751517503625151750367515175037251517503775151750382515175038751517503925151750397515175040251517504075151750412515175041751517504225151750427515175043251517504375151750442515175044751517504525151750457515175046251517504675151750472515175047751517504825151750487515175049251517504975151750502515175050751517505125151750517515175)
 (.leaf 522515175052751517505325151750537515175054251517505475151750552515175055751517505625151750567515175057251517505775151750582515175058751517505925151750597515175060251517506075151750612515175061751517506225151750627515175063251517506375151750642515175064751517506525151750657515175066251517506675151750672515175067751517506825151750687515175069251517506975151750702515175070751517507125151750717515175072251517507275151750732515175073751517507425151750747515175075251517507575151750762515175076751517507725151750777515175078251517507875151750792515175079751517508025151750807515175081251517508175151750822515175082751517508325151750837515175)))))
 (.node 8 (.node 4 (.node 2 (.node 1 (.leaf 842515175084751517508525151750857515175086251517508675151750997515175100251517510075151751017515175102251517510275151751032515175103751517510425151751047515175105251517510575151751062515175106751517510725151751077515175108251517511325151751137515175114751517511525151751302515175130751517513125151751317515175132251517513275151751332515175133751517513425151751347515175135251517513575151751362515175136751517513725151751377515175146751517514725151751732515175184751517518525151751857515175186251517518675151751872515175187751517518825151751887515175189251517518975151751902515175190751517519125151751917515175192251517519275151751932515175)
 (.leaf 1937515175194251517519475151751952515175195751517519625151751967515175197251517520125151752017515175202251517520275151752032515175203751517520425151752047515175205251517520575151752062515175206751517520725151752077515175208251517520875151752092515175209751517521025151752107515175211251517521175151752122515175212751517521325151752137515175214251517521475151752152515175215751517521625151752167515175217251517521775151752182515175218751517521925151752197515175220251517522075151752212515175221751517522225151752227515175223251517522375151752242515175224751517522525151752257515175226251517522675151752272515175227751517522825151752287515175))
 (.node 1 (.leaf 2292515175229751517523025151752307515175231251517523175151752322515175232751517523325151752337515175234251517523475151752352515175235751517523625151752367515175237251517523775151752382515175238751517523925151752397515175240251517524075151752412515175241751517524225151752427515175243251517524375151752442515175244751517524525151752457515175246251517524675151752472515175247751517524825151752487515175249251517524975151752502515175250751517525125151752517515175252251517525275151752532515175253751517525425151752547515175255251517525575151752562515175256751517525725151752577515175258251517525875151752592515175259751517526025151752607515175)
 (.leaf 2612515175261751517526225151752627515175263251517526375151752642515175264751517526525151752657515175266251517526675151752672515175267751517526825151752687515175269251517526975151752702515175270751517527125151752717515175272251517527275151752732515175273751517527425151752747515175275251517527575151752762515175276751517527725151752777515175278251517527875151752792515175279751517528025151752807515175281251517528175151752822515175282751517528325151752837515175284251517528475151752852515175285751517528625151752867515175287251517528775151752882515175288751517528925151752897515175290251517529075151752912515175291751517529225151752927515175)))
 (.node 2 (.node 1 (.leaf 2932515175293751517529425151752947515175295251517529575151752962515175296751517529725151752977515175298251517529875151752992515175299751517530025151753007515175301251517530175151753022515175302751517530325151753037515175304251517530475151753052515175305751517530625151753067515175307251517530775151753082515175308751517530925151753097515175310251517531075151753112515175311751517531225151753127515175313251517531375151753142515175314751517531525151753157515175316251517531675151753172515175317751517531825151753187515175319251517531975151753202515175320751517532125151753217515175322251517532275151753232515175323751517532425151753247515175)
 (.leaf 3252515175325751517532625151753267515175327251517532775151753282515175328751517532925151753297515175330251517533075151753312515175331751517533225151753327515175333251517533375151753342515175334751517533525151753357515175336251517533675151753372515175337751517533825151753387515175339251517533975151753402515175340751517534125151753417515175342251517534275151753432515175343751517534425151753447515175345251517534575151753462515175346751517534725151753477515175348251517534875151753492515175349751517535025151753507515175351251517535175151753522515175352751517535325151753537515175354251517535475151753552515175013751512501425151250147515125))
 (.node 1 (.leaf 152515125015751512501625151250167515125017251512501775151250182515125018751512501925151250197515125020251512502075151250212515125021751512502225151250227515125023251512502375151250242515125024751512502525151250257515125026251512502675151250272515125027751512502825151250287515125029251512502975151250302515125030751512503125151250317515125032251512503275151250332515125033751512503425151250347515125035251512503575151250362515125036751512503725151250377515125038251512503875151250392515125039751512504025151250407515125041251512504175151250422515125042751512504325151250437515125044251512504475151250452515125045751512504625151250467515125)
 (.leaf 472515125047751512504825151250487515125049251512504975151250502515125050751512505125151250517515125052251512505275151250532515125053751512505425151250547515125055251512505575151250562515125056751512505725151250577515125058251512505875151250592515125059751512506025151250607515125061251512506175151250622515125062751512506325151250637515125064251512506475151250652515125065751512506625151250667515125067251512506775151250682515125068751512506925151250697515125070251512507075151250712515125071751512507225151250727515125073251512507375151250742515125074751512507525151250757515125076251512507675151250772515125077751512507825151250787515125))))
 (.node 4 (.node 2 (.node 1 (.leaf 792515125079751512508025151250807515125081251512508175151250822515125082751512508325151250837515125084251512508475151250852515125085751512508625151251022515125102751512510325151251037515125104251512510475151251052515125105751512510625151251067515125107251512510775151251082515125108751512510975151251147515125115251512513075151251312515125131751512513225151251327515125133251512513375151251342515125134751512513525151251357515125136251512513675151251372515125137751512517325151251847515125185251512518575151251862515125186751512518725151251877515125188251512518875151251892515125189751512519025151251907515125191251512519175151251922515125)
 (.leaf 1927515125193251512519375151251942515125194751512519525151251957515125196251512519675151251972515125201251512520175151252022515125202751512520325151252037515125204251512520475151252052515125205751512520625151252067515125207251512520775151252082515125208751512520925151252097515125210251512521075151252117515125212251512521275151252132515125213751512521425151252147515125215251512521575151252162515125216751512521725151252177515125218251512521875151252192515125219751512522025151252207515125221251512522175151252222515125222751512522325151252237515125224251512522475151252252515125225751512522625151252267515125227251512522775151252282515125))
 (.node 1 (.leaf 2287515125229251512522975151252302515125230751512523125151252317515125232251512523275151252332515125233751512523425151252347515125235251512523575151252362515125236751512523725151252377515125238251512523875151252392515125239751512524025151252407515125241251512524175151252422515125242751512524325151252437515125244251512524475151252452515125245751512524625151252467515125247251512524775151252482515125248751512524925151252497515125250251512525075151252512515125251751512525225151252527515125253251512525375151252542515125254751512525525151252557515125256251512525675151252572515125257751512525825151252587515125259251512525975151252602515125)
 (.leaf 2607515125261251512526175151252622515125262751512526325151252637515125264251512526475151252652515125265751512526625151252667515125267251512526775151252682515125268751512526925151252697515125270251512527075151252712515125271751512527225151252727515125273251512527375151252742515125274751512527525151252757515125276251512527675151252772515125277751512527825151252787515125279251512527975151252802515125280751512528125151252817515125282251512528275151252832515125283751512528425151252847515125285251512528575151252862515125286751512528725151252877515125288251512528875151252892515125289751512529025151252907515125291251512529175151252922515125)))
 (.node 2 (.node 1 (.leaf 2927515125293251512529375151252942515125294751512529525151252957515125296251512529675151252972515125297751512529825151252987515125299251512529975151253002515125300751512530125151253017515125302251512530275151253032515125303751512530425151253047515125305251512530575151253062515125306751512530725151253077515125308251512530875151253092515125309751512531025151253107515125311251512531175151253122515125312751512531325151253137515125314251512531475151253152515125315751512531625151253167515125317251512531775151253182515125318751512531925151253197515125320251512532075151253212515125321751512532225151253227515125323251512532375151253242515125)
 (.leaf 3247515125325251512532575151253262515125326751512532725151253277515125328251512532875151253292515125329751512533025151253307515125331251512533175151253322515125332751512533325151253337515125334251512533475151253352515125335751512533625151253367515125339751512534025151253407515125341251512534175151253422515125343751512534425151253447515125345251512534575151253462515125346751512534725151253477515125348251512534875151253492515125349751512535025151253507515125351251512535175151253522515125352751512535325151250147515075015251507501575150750162515075016751507501725150750177515075018251507501875150750192515075019751507502025150750207515075))
 (.node 1 (.leaf 212515075021751507502225150750227515075023251507502375150750242515075024751507502525150750257515075026251507502675150750272515075027751507502825150750287515075029251507502975150750302515075030751507503125150750317515075032251507503275150750332515075033751507503425150750347515075035251507503575150750362515075036751507503725150750377515075038251507503875150750392515075039751507504025150750407515075041251507504175150750422515075042751507504325150750437515075044251507504475150750452515075045751507504625150750467515075047251507504775150750482515075048751507504925150750497515075050251507505075150750512515075051751507505225150750527515075)
 (.leaf 532515075053751507505425150750547515075055251507505575150750562515075056751507505725150750577515075058251507505875150750592515075059751507506025150750607515075061251507506175150750622515075062751507506325150750637515075064251507506475150750652515075065751507506625150750667515075067251507506775150750682515075068751507506925150750697515075070251507507075150750712515075071751507507225150750727515075073251507507375150750742515075074751507507525150750757515075076251507507675150750772515075077751507507825150750787515075079251507507975150750802515075080751507508125150750817515075082251507508275150750832515075083751507508425150750847515075)))))))))
 (.node 128 (.node 64 (.node 32 (.node 16 (.node 8 (.node 4 (.node 2 (.node 1 (.leaf 852515075085751507510125150751017515075102251507510275150751032515075103751507510425150751047515075105251507510575150751062515075106751507510725150751077515075108251507510875150751092515075109751507511025150751107515075111751507511225150751152515075131751507513225150751327515075133251507513375150751342515075134751507513525150751357515075136251507513675150751372515075178251507517875150751792515075180751507518125150751847515075185251507518575150751862515075186751507518725150751877515075188251507518875150751892515075189751507519025150751907515075191251507519175150751922515075192751507519325150751937515075194251507519475150751952515075)
 (.leaf 1957515075196251507519675150751972515075197751507520125150752017515075202251507520275150752032515075203751507520425150752047515075205251507520575150752062515075206751507520725150752077515075208251507520875150752092515075209751507521025150752107515075212751507521325150752137515075214251507521475150752152515075215751507521625150752167515075217251507521775150752182515075218751507521925150752197515075220251507522075150752212515075221751507522225150752227515075223251507522375150752242515075224751507522525150752257515075226251507522675150752272515075227751507522825150752287515075229251507522975150752302515075230751507523125150752317515075))
 (.node 1 (.leaf 2322515075232751507523325150752337515075234251507523475150752352515075235751507523625150752367515075237251507523775150752382515075238751507523925150752397515075240251507524075150752412515075241751507524225150752427515075243251507524375150752442515075244751507524525150752457515075246251507524675150752472515075247751507524825150752487515075249251507524975150752502515075250751507525125150752517515075252251507525275150752532515075253751507525425150752547515075255251507525575150752562515075256751507525725150752577515075258251507525875150752592515075259751507526025150752607515075261251507526175150752622515075262751507526325150752637515075)
 (.leaf 2642515075264751507526525150752657515075266251507526675150752672515075267751507526825150752687515075269251507526975150752702515075270751507527125150752717515075272251507527275150752732515075273751507527425150752747515075275251507527575150752762515075276751507527725150752777515075278251507527875150752792515075279751507528025150752807515075281251507528175150752822515075282751507528325150752837515075284251507528475150752852515075285751507528625150752867515075287251507528775150752882515075288751507528925150752897515075290251507529075150752912515075291751507529225150752927515075293251507529375150752942515075294751507529525150752957515075)))
 (.node 2 (.node 1 (.leaf 2962515075296751507529725150752977515075298251507529875150752992515075299751507530025150753007515075301251507530175150753022515075302751507530325150753037515075304251507530475150753052515075305751507530625150753067515075307251507530775150753082515075308751507530925150753097515075310251507531075150753112515075311751507531225150753127515075313251507531375150753142515075314751507531525150753157515075316251507531675150753172515075317751507531825150753187515075319251507531975150753202515075320751507532125150753217515075322251507532275150753232515075323751507532425150753247515075325251507532575150753262515075326751507532725150753277515075)
 (.leaf 3282515075328751507532925150753297515075330251507533075150753312515075331751507533225150753327515075333251507533375150753342515075334751507533525150753357515075339751507534025150753407515075341251507534275150753432515075343751507534425150753447515075345251507534575150753462515075346751507534725150753477515075348251507534875150753492515075349751507535025150753507515075351251507535175150753522515075012751502501325150250137515025014251502501475150250152515025015751502501625150250167515025017251502501775150250182515025018751502501925150250197515025020251502502075150250212515025021751502502225150250227515025023251502502375150250242515025))
 (.node 1 (.leaf 247515025025251502502575150250262515025026751502502725150250277515025028251502502875150250292515025029751502503025150250307515025031251502503175150250322515025032751502503325150250337515025034251502503475150250352515025035751502503625150250367515025037251502503775150250382515025038751502503925150250397515025040251502504075150250412515025041751502504225150250427515025043251502504375150250442515025044751502504525150250457515025046251502504675150250472515025047751502504825150250487515025049251502504975150250502515025050751502505125150250517515025052251502505275150250532515025053751502505425150250547515025055251502505575150250562515025)
 (.leaf 567515025057251502505775150250582515025058751502505925150250597515025060251502506075150250612515025061751502506225150250627515025063251502506375150250642515025064751502506525150250657515025066251502506675150250672515025067751502506825150250687515025069251502506975150250702515025070751502507125150250717515025072251502507275150250732515025073751502507425150250747515025075251502507575150250762515025076751502507725150250777515025078251502507875150250792515025079751502508025150250807515025081251502508175150250822515025082751502508325150250837515025084251502508475150250852515025102251502510275150251032515025103751502510425150251047515025))))
 (.node 4 (.node 2 (.node 1 (.leaf 1052515025105751502510625150251067515025107251502510775150251082515025108751502510925150251097515025110251502511175150251122515025115251502511575150251347515025135251502513575150251362515025136751502515975150251602515025178251502517875150251852515025185751502518625150251867515025187251502518775150251882515025188751502518925150251897515025190251502519075150251912515025191751502519225150251927515025193251502519375150251942515025194751502519525150251957515025196251502519675150251972515025197751502519825150251987515025199751502520025150252007515025201251502520175150252022515025202751502520325150252037515025204251502520475150252052515025)
 (.leaf 2057515025206251502520675150252087515025209251502520975150252102515025210751502521125150252117515025212251502521275150252132515025213751502521425150252147515025215251502521575150252162515025216751502521725150252177515025218251502521875150252192515025219751502522025150252207515025221251502522175150252222515025222751502522325150252237515025224251502522475150252252515025225751502522625150252267515025227251502522775150252282515025228751502522925150252297515025230251502523075150252312515025231751502523225150252327515025233251502523375150252342515025234751502523525150252357515025236251502523675150252372515025237751502523825150252387515025))
 (.node 1 (.leaf 2392515025239751502524025150252407515025241251502524175150252422515025242751502524325150252437515025244251502524475150252452515025245751502524625150252467515025247251502524775150252482515025248751502524925150252497515025250251502525075150252512515025251751502525225150252527515025253251502525375150252542515025254751502525525150252557515025256251502525675150252572515025257751502525825150252587515025259251502525975150252602515025260751502526125150252617515025262251502526275150252632515025263751502526425150252647515025265251502526575150252662515025266751502526725150252677515025268251502526875150252692515025269751502527025150252707515025)
 (.leaf 2712515025271751502527225150252727515025273251502527375150252742515025274751502527525150252757515025276251502527675150252772515025277751502527825150252787515025279251502527975150252802515025280751502528125150252817515025282251502528275150252832515025283751502528425150252847515025285251502528575150252862515025286751502528725150252877515025288251502528875150252892515025289751502529025150252907515025291251502529175150252922515025292751502529325150252937515025294251502529475150252952515025295751502529625150252967515025297251502529775150252982515025298751502529925150252997515025300251502530075150253012515025301751502530225150253027515025)))
 (.node 2 (.node 1 (.leaf 3032515025303751502530425150253047515025305251502530575150253062515025306751502530725150253077515025308251502530875150253092515025309751502531025150253107515025311251502531175150253122515025312751502531325150253137515025314251502531475150253152515025315751502531625150253167515025317251502531775150253182515025318751502531925150253197515025320251502532075150253212515025321751502532225150253227515025323251502532375150253242515025324751502532525150253257515025326251502532675150253272515025327751502532825150253287515025329251502532975150253302515025330751502533125150253317515025332251502533275150253332515025333751502533425150253347515025)
 (.leaf 3352515025341751502534225150253427515025343251502534375150253442515025344751502534525150253457515025346251502534675150253472515025347751502534925150253497515025350251502535075150250127514975013251497501375149750142514975015751497501625149750167514975017251497501775149750182514975018751497501925149750197514975020251497502075149750212514975021751497502225149750227514975023251497502375149750242514975024751497502525149750257514975026251497502675149750272514975028251497502875149750292514975029751497503025149750307514975031251497503225149750352514975038251497503875149750392514975039751497504025149750407514975041251497504175149750422514975))
 (.node 1 (.leaf 427514975043251497504375149750442514975044751497504525149750457514975046251497504675149750472514975047751497504825149750487514975049251497504975149750502514975050751497505125149750517514975052251497505275149750532514975053751497505425149750547514975055251497505575149750562514975056751497505725149750577514975058251497505875149750592514975059751497506025149750607514975061251497506175149750622514975062751497506325149750637514975064251497506475149750652514975065751497506625149750667514975067251497506775149750682514975068751497506925149750697514975070251497507075149750712514975071751497507225149750727514975073251497507375149750742514975)
 (.leaf 747514975075251497507575149750762514975076751497507725149750777514975078251497507875149750792514975079751497508025149750807514975081251497508175149750822514975082751497508325149750837514975084251497508475149750852514975102251497510275149751032514975103751497510425149751047514975105251497510575149751062514975106751497510725149751077514975108251497510875149751092514975109751497511025149751147514975115251497511575149751162514975135251497513575149751362514975136751497515975149751602514975178751497518525149751857514975186251497518675149751872514975187751497518825149751887514975189251497518975149751902514975190751497519125149751917514975)))))
 (.node 8 (.node 4 (.node 2 (.node 1 (.leaf 1922514975192751497519325149751937514975194251497519475149751952514975195751497519625149751967514975197251497519775149751982514975198751497519925149752022514975202751497520325149752037514975204251497520575149752062514975206751497520825149752087514975209251497520975149752102514975210751497521125149752117514975212251497521275149752132514975213751497521425149752147514975215251497521575149752162514975216751497521725149752177514975218251497521875149752192514975219751497522025149752207514975221251497522175149752222514975222751497522325149752237514975224251497522475149752252514975225751497522625149752267514975227251497522775149752282514975)
 (.leaf 2287514975229251497522975149752302514975230751497523125149752317514975232251497523275149752332514975233751497523425149752347514975235251497523575149752362514975236751497523725149752377514975238251497523875149752392514975239751497524025149752407514975241251497524175149752422514975242751497524325149752437514975244251497524475149752452514975245751497524625149752467514975247251497524775149752482514975248751497524925149752497514975250251497525075149752512514975251751497525225149752527514975253251497525375149752542514975254751497525525149752557514975256251497525675149752572514975257751497525825149752587514975259251497525975149752602514975))
 (.node 1 (.leaf 2607514975261251497526175149752622514975262751497526325149752637514975264251497526475149752652514975265751497526625149752667514975267251497526775149752682514975268751497526925149752697514975270251497527075149752712514975271751497527225149752727514975273251497527375149752742514975274751497527525149752757514975276251497527675149752772514975277751497527825149752787514975279251497527975149752802514975280751497528125149752817514975282251497528275149752832514975283751497528425149752847514975285251497528575149752862514975286751497528725149752877514975288251497528875149752892514975289751497529025149752907514975291251497529175149752922514975)
 (.leaf 2927514975293251497529375149752942514975294751497529525149752957514975296251497529675149752972514975297751497529825149752987514975299251497529975149753002514975300751497530125149753017514975302251497530275149753032514975303751497530425149753047514975305251497530575149753062514975306751497530725149753077514975308251497530875149753092514975309751497531025149753107514975311251497531175149753122514975312751497531325149753137514975314251497531475149753152514975315751497531625149753167514975317251497531775149753182514975318751497531925149753197514975320251497532075149753212514975321751497532225149753227514975323251497532375149753242514975)))
 (.node 2 (.node 1 (.leaf 3247514975325251497532575149753262514975326751497532725149753277514975328251497532875149753292514975329751497533025149753307514975331251497533175149753322514975332751497533325149753337514975334251497534075149753412514975341751497534225149753427514975343251497534375149753442514975344751497534525149753462514975350251497501825149250187514925019251492501975149250202514925020751492502125149250217514925022251492502275149250232514925023751492502425149250247514925025251492502575149250262514925028251492502875149250292514925029751492504025149250407514925041251492504175149250422514925042751492504325149250437514925044251492504475149250452514925)
 (.leaf 457514925046251492504675149250472514925047751492504825149250487514925049251492504975149250502514925050751492505125149250517514925052251492505275149250532514925053751492505425149250547514925055251492505575149250562514925056751492505725149250577514925058251492505875149250592514925059751492506025149250607514925061251492506175149250622514925062751492506325149250637514925064251492506475149250652514925065751492506625149250667514925067251492506775149250682514925068751492506925149250697514925070251492507075149250712514925071751492507225149250727514925073251492507375149250742514925074751492507525149250757514925076251492507675149250772514925))
 (.node 1 (.leaf 777514925078251492507875149250792514925079751492508025149250807514925081251492508175149250822514925082751492508325149250837514925084251492508475149250852514925101751492510225149251027514925103251492510375149251042514925104751492510525149251057514925106251492510675149251072514925107751492510825149251087514925109251492510975149251102514925110751492511425149251147514925115251492511575149251162514925116751492517675149251772514925185251492518575149251862514925186751492518725149251877514925188251492518875149251892514925189751492519025149251907514925191251492519175149251922514925192751492519325149251937514925194251492519475149251952514925)
 (.leaf 1957514925196251492519675149251972514925197751492519825149251987514925199251492519975149252027514925203251492520375149252042514925204751492520525149252057514925206251492520675149252072514925207751492520825149252087514925209251492520975149252102514925210751492521125149252117514925212251492521275149252132514925213751492521425149252147514925215251492521575149252162514925216751492521725149252177514925218251492521875149252192514925219751492522025149252207514925221251492522175149252222514925222751492522325149252237514925224251492522475149252252514925225751492522625149252267514925227251492522775149252282514925228751492522925149252297514925))))
 (.node 4 (.node 2 (.node 1 (.leaf 2302514925230751492523125149252317514925232251492523275149252332514925233751492523425149252347514925235251492523575149252362514925236751492523725149252377514925238251492523875149252392514925239751492524025149252407514925241251492524175149252422514925242751492524325149252437514925244251492524475149252452514925245751492524625149252467514925247251492524775149252482514925248751492524925149252497514925250251492525075149252512514925251751492525225149252527514925253251492525375149252542514925254751492525525149252557514925256251492525675149252572514925257751492525825149252587514925259251492525975149252602514925260751492526125149252617514925)
 (.leaf 2622514925262751492526325149252637514925264251492526475149252652514925265751492526625149252667514925267251492526775149252682514925268751492526925149252697514925270251492527075149252712514925271751492527225149252727514925273251492527375149252742514925274751492527525149252757514925276251492527675149252772514925277751492527825149252787514925279251492527975149252802514925280751492528125149252817514925282251492528275149252832514925283751492528425149252847514925285251492528575149252862514925286751492528725149252877514925288251492528875149252892514925289751492529025149252907514925291251492529175149252922514925292751492529325149252937514925))
 (.node 1 (.leaf 2942514925294751492529525149252957514925296251492529675149252972514925297751492529825149252987514925299251492529975149253002514925300751492530125149253017514925302251492530275149253032514925303751492530425149253047514925305251492530575149253062514925306751492530725149253077514925308251492530875149253092514925309751492531025149253107514925311251492531175149253122514925312751492531325149253137514925314251492531475149253152514925315751492531625149253167514925317251492531775149253182514925318751492531925149253197514925320251492532075149253212514925321751492532225149253227514925323251492532375149253242514925324751492532525149253257514925)
 (.leaf 3262514925326751492532725149253277514925328251492532875149253292514925330751492533125149253317514925332251492533275149253332514925333751492533425149253347514925335251492533975149253402514925340751492534125149253417514925342251492534275149253432514925344251492534475149250182514875018751487501925148750197514875020251487502075148750212514875021751487502225148750227514875023251487502375148750242514875024751487502525148750257514875026251487502675148750417514875042251487504275148750432514875043751487504425148750447514875045251487504575148750462514875046751487504725148750477514875048251487504875148750492514875049751487505025148750507514875)))
 (.node 2 (.node 1 (.leaf 512514875051751487505225148750527514875053251487505375148750542514875054751487505525148750557514875056251487505675148750572514875057751487505825148750587514875059251487505975148750602514875060751487506125148750617514875062251487506275148750632514875063751487506425148750647514875065251487506575148750662514875066751487506725148750677514875068251487506875148750692514875069751487507025148750707514875071251487507175148750722514875072751487507325148750737514875074251487507475148750752514875075751487507625148750767514875077251487507775148750782514875078751487507925148750797514875080251487508075148750812514875081751487508225148750827514875)
 (.leaf 832514875083751487508425148750847514875085251487508575148750862514875086751487510125148751017514875102251487510275148751032514875103751487510425148751047514875105251487510575148751062514875106751487510725148751077514875108251487510875148751092514875109751487511025148751107514875111251487511175148751132514875113751487511425148751147514875115251487511575148751162514875116751487511725148751747514875175251487517575148751762514875176751487517725148751857514875186251487518675148751872514875187751487518825148751887514875189251487518975148751907514875191251487519175148751922514875192751487519325148751937514875194251487519475148751952514875))
 (.node 1 (.leaf 1957514875196251487519675148751972514875197751487519825148752022514875202751487520325148752037514875204251487520475148752052514875205751487520625148752067514875207251487520775148752082514875208751487520925148752097514875210251487521075148752112514875211751487521225148752127514875213251487521375148752142514875214751487521525148752157514875216251487521675148752172514875217751487521825148752187514875219251487521975148752202514875220751487522125148752217514875222251487522275148752232514875223751487522425148752247514875225251487522575148752262514875226751487522725148752277514875228251487522875148752292514875229751487523025148752307514875)
 (.leaf 2312514875231751487523225148752327514875233251487523375148752342514875234751487523525148752357514875236251487523675148752372514875237751487523825148752387514875239251487523975148752402514875240751487524125148752417514875242251487524275148752432514875243751487524425148752447514875245251487524575148752462514875246751487524725148752477514875248251487524875148752492514875249751487525025148752507514875251251487525175148752522514875252751487525325148752537514875254251487525475148752552514875255751487525625148752567514875257251487525775148752582514875258751487525925148752597514875260251487526075148752612514875261751487526225148752627514875))))))
 (.node 16 (.node 8 (.node 4 (.node 2 (.node 1 (.leaf 2632514875263751487526425148752647514875265251487526575148752662514875266751487526725148752677514875268251487526875148752692514875269751487527025148752707514875271251487527175148752722514875272751487527325148752737514875274251487527475148752752514875275751487527625148752767514875277251487527775148752782514875278751487527925148752797514875280251487528075148752812514875281751487528225148752827514875283251487528375148752842514875284751487528525148752857514875286251487528675148752872514875287751487528825148752887514875289251487528975148752902514875290751487529125148752917514875292251487529275148752932514875293751487529425148752947514875)
 (.leaf 2952514875295751487529625148752967514875297251487529775148752982514875298751487529925148752997514875300251487530075148753012514875301751487530225148753027514875303251487530375148753042514875304751487530525148753057514875306251487530675148753072514875307751487530825148753087514875309251487530975148753102514875310751487531125148753117514875312251487531275148753132514875313751487531425148753147514875315251487531575148753162514875316751487531725148753177514875318251487531875148753192514875319751487532025148753207514875321251487532175148753312514875331751487533225148753327514875339251487533975148753402514875340751487534125148753417514875))
 (.node 1 (.leaf 3422514875342751487534375148753442514875344751487502075148250212514825022251482502275148250232514825023751482502425148250247514825025251482502575148250267514825027251482502775148250282514825042751482504325148250437514825044251482504475148250452514825045751482504625148250467514825047251482504775148250482514825048751482504925148250497514825050251482505075148250512514825051751482505225148250527514825053251482505375148250542514825054751482505525148250557514825056251482505675148250572514825057751482505825148250587514825059251482505975148250602514825060751482506125148250617514825062251482506275148250632514825063751482506425148250647514825)
 (.leaf 652514825065751482506625148250667514825067251482506775148250682514825068751482506925148250697514825070251482507075148250712514825071751482507225148250727514825073251482507375148250742514825074751482507525148250757514825076251482507675148250772514825077751482507825148250787514825079251482507975148250802514825080751482508125148250817514825082251482508275148250832514825083751482508425148250847514825085251482508575148250862514825086751482508725148251017514825102251482510275148251032514825103751482510425148251047514825105251482510575148251062514825106751482510725148251077514825108251482510875148251092514825109751482511025148251107514825)))
 (.node 2 (.node 1 (.leaf 1112514825111751482511225148251127514825113251482511375148251142514825114751482511525148251157514825116251482511675148251172514825117751482517275148251732514825173751482517475148251752514825175751482517625148251767514825185751482518625148251867514825187251482518775148251882514825188751482519125148251917514825192251482519275148251932514825193751482519425148251947514825195251482519575148251962514825196751482519925148252017514825202251482520275148252032514825203751482520425148252047514825205251482520575148252062514825206751482520725148252077514825208251482520875148252092514825209751482521025148252107514825211251482521175148252122514825)
 (.leaf 2127514825213251482521375148252142514825214751482521525148252157514825216251482521675148252172514825217751482521825148252187514825219251482521975148252202514825220751482522125148252217514825222251482522275148252232514825223751482522425148252247514825225251482522575148252262514825226751482522725148252277514825228251482522875148252292514825229751482523025148252307514825231251482523175148252322514825232751482523325148252337514825234251482523475148252352514825235751482523625148252367514825237251482523775148252382514825238751482523925148252397514825240251482524075148252412514825241751482524225148252427514825243251482524375148252442514825))
 (.node 1 (.leaf 2447514825245251482524575148252462514825246751482524725148252477514825248251482524875148252492514825249751482525025148252507514825251251482525175148252522514825252751482525325148252537514825254251482525475148252552514825255751482525625148252567514825257251482525775148252582514825258751482525925148252597514825260251482526075148252612514825261751482526225148252627514825263251482526375148252642514825264751482526525148252657514825266251482526675148252672514825267751482526825148252687514825269251482526975148252702514825270751482527125148252717514825272251482527275148252732514825273751482527425148252747514825275251482527575148252762514825)
 (.leaf 2767514825277251482527775148252782514825278751482527925148252797514825280251482528075148252812514825281751482528225148252827514825283251482528375148252842514825284751482528525148252857514825286251482528675148252872514825287751482528825148252887514825289251482528975148252902514825290751482529125148252917514825292251482529275148252932514825293751482529425148252947514825295251482529575148252962514825296751482529725148252977514825298251482529875148252992514825299751482530025148253007514825301251482530175148253022514825302751482530325148253037514825304251482530475148253052514825305751482530625148253067514825307251482530775148253082514825))))
 (.node 4 (.node 2 (.node 1 (.leaf 3087514825309251482530975148253102514825310751482531125148253117514825312251482531275148253132514825313751482531425148253147514825315251482531575148253162514825316751482531725148253177514825318251482531875148253192514825319751482532025148253207514825321251482533825148253387514825339251482533975148253402514825340751482534125148253417514825342251482502225147750227514775023251477502375147750242514775024751477502575147750262514775026751477502725147750277514775043751477504425147750447514775045251477504575147750462514775046751477504725147750477514775048251477504875147750492514775049751477505025147750507514775051251477505175147750522514775)
 (.leaf 527514775053251477505375147750542514775054751477505525147750557514775056251477505675147750572514775057751477505825147750587514775059251477505975147750602514775060751477506125147750617514775062251477506275147750632514775063751477506425147750647514775065251477506575147750662514775066751477506725147750677514775068251477506875147750692514775069751477507025147750707514775071251477507175147750722514775072751477507325147750737514775074251477507475147750752514775075751477507625147750767514775077251477507775147750782514775078751477507925147750797514775080251477508075147750812514775081751477508225147750827514775083251477508375147750842514775))
 (.node 1 (.leaf 847514775085251477508575147750862514775086751477508725147751027514775103251477510375147751042514775104751477510525147751057514775106251477510675147751072514775107751477510825147751087514775109251477510975147751102514775110751477511125147751117514775112251477511275147751132514775113751477511425147751147514775115251477511575147751162514775116751477511725147751177514775118251477517275147751732514775173751477517425147751747514775175251477517575147751762514775176751477517725147751777514775178251477518975147751902514775190751477519175147751922514775192751477519325147751937514775194251477519475147751952514775195751477519625147751967514775)
 (.leaf 1982514775198751477519925147752017514775202251477520275147752042514775204751477520525147752057514775206251477520675147752072514775207751477520825147752087514775209251477520975147752102514775210751477521125147752117514775212251477521275147752132514775213751477521425147752147514775215251477521575147752162514775216751477521725147752177514775218251477521875147752192514775219751477522025147752207514775221251477522175147752222514775222751477522325147752237514775224251477522475147752252514775225751477522625147752267514775227251477522775147752282514775228751477522925147752297514775230251477523075147752312514775231751477523225147752327514775)))
 (.node 2 (.node 1 (.leaf 2332514775233751477523425147752347514775235251477523575147752362514775236751477523725147752377514775238251477523875147752392514775239751477524025147752407514775241251477524175147752422514775242751477524325147752437514775244251477524475147752452514775245751477524625147752467514775247251477524775147752482514775248751477524925147752497514775250251477525075147752512514775251751477525225147752527514775253251477525375147752542514775254751477525525147752557514775256251477525675147752572514775257751477525825147752587514775259251477525975147752602514775260751477526125147752617514775262251477526275147752632514775263751477526425147752647514775)
 (.leaf 2652514775265751477526625147752667514775267251477526775147752682514775268751477526925147752697514775270251477527075147752712514775271751477527225147752727514775273251477527375147752742514775274751477527525147752757514775276251477527675147752772514775277751477527825147752787514775279251477527975147752802514775280751477528125147752817514775282251477528275147752832514775283751477528425147752847514775285251477528575147752862514775286751477528725147752877514775288251477528875147752892514775289751477529025147752907514775291251477529175147752922514775292751477529325147752937514775294251477529475147752952514775295751477529625147752967514775))
 (.node 1 (.leaf 2972514775297751477529825147752987514775299251477529975147753002514775300751477530125147753017514775302251477530275147753032514775303751477530425147753047514775305251477530575147753062514775306751477530725147753077514775308251477530875147753092514775309751477531025147753107514775311251477531175147753122514775312751477531325147753137514775314251477531475147753152514775315751477531625147753167514775317251477531775147753182514775318751477531925147753197514775320251477533675147753372514775337751477533825147753387514775339251477533975147753402514775340751477534125147753417514775342251477534275147753432514775009751472502125147250217514725)
 (.leaf 222514725022751472502325147250237514725025251472502575147250262514725026751472502725147250277514725044251472504475147250452514725045751472504625147250467514725047251472504775147250482514725048751472504925147250497514725050251472505075147250512514725051751472505225147250527514725053251472505375147250542514725054751472505525147250557514725056251472505675147250572514725057751472505825147250587514725059251472505975147250602514725060751472506125147250617514725062251472506275147250632514725063751472506425147250647514725065251472506575147250662514725066751472506725147250677514725068251472506875147250692514725069751472507025147250707514725)))))
 (.node 8 (.node 4 (.node 2 (.node 1 (.leaf 712514725071751472507225147250727514725073251472507375147250742514725074751472507525147250757514725076251472507675147250772514725077751472507825147250787514725079251472507975147250802514725080751472508125147250817514725082251472508275147250832514725083751472508425147250847514725085251472508575147250862514725086751472508725147250877514725088251472508875147250892514725089751472510325147251037514725104251472510475147251052514725105751472510625147251067514725107251472510775147251082514725108751472510925147251097514725110251472511075147251112514725111751472511225147251127514725113251472511375147251142514725114751472511525147251157514725)
 (.leaf 1162514725116751472511725147251177514725118251472511875147251727514725173251472517375147251742514725174751472517525147251757514725176251472517675147251772514725177751472517825147251887514725189251472518975147251902514725190751472519125147251917514725192251472519275147251932514725193751472519425147251947514725195251472519575147251962514725196751472519725147251982514725198751472520125147252017514725202251472520275147252032514725204251472520475147252052514725205751472520625147252067514725207251472520775147252082514725208751472520925147252097514725210251472521075147252112514725211751472521225147252127514725213251472521375147252142514725))
 (.node 1 (.leaf 2147514725215251472521575147252162514725216751472521725147252177514725218251472521875147252192514725219751472522025147252207514725221251472522175147252222514725222751472522325147252237514725224251472522475147252252514725225751472522625147252267514725227251472522775147252282514725228751472522925147252297514725230251472523075147252312514725231751472523225147252327514725233251472523375147252342514725234751472523525147252357514725236251472523675147252372514725237751472523825147252387514725239251472523975147252402514725240751472524125147252417514725242251472524275147252432514725243751472524425147252447514725245251472524575147252462514725)
 (.leaf 2467514725247251472524775147252482514725248751472524925147252497514725250251472525075147252512514725251751472525225147252527514725253251472525375147252542514725254751472525525147252557514725256251472525675147252572514725257751472525825147252587514725259251472525975147252602514725260751472526125147252617514725262251472526275147252632514725263751472526425147252647514725265251472526575147252662514725266751472526725147252677514725268251472526875147252692514725269751472527025147252707514725271251472527175147252722514725272751472527325147252737514725274251472527475147252752514725275751472527625147252767514725277251472527775147252782514725)))
 (.node 2 (.node 1 (.leaf 2787514725279251472527975147252802514725280751472528125147252817514725282251472528275147252832514725283751472528425147252847514725285251472528575147252862514725286751472528725147252877514725288251472528875147252892514725289751472529025147252907514725291251472529175147252922514725292751472529325147252937514725294251472529475147252952514725295751472529625147252967514725297251472529775147252982514725298751472529925147252997514725300251472530075147253012514725301751472530225147253027514725303251472530375147253042514725304751472530525147253057514725306251472530675147253072514725307751472530825147253087514725309251472530975147253102514725)
 (.leaf 3107514725311251472531175147253122514725312751472531325147253137514725314251472531475147253152514725315751472531625147253167514725317251472531775147253182514725318751472531925147253197514725336751472533725147253377514725338251472533875147253392514725339751472534025147253407514725341251472534175147253422514725342751472502025146750207514675021251467502175146750222514675022751467502325146750257514675026251467504475146750452514675045751467504625146750467514675047251467504775146750482514675048751467504925146750497514675050251467505075146750512514675051751467505225146750527514675053251467505375146750542514675054751467505525146750557514675))
 (.node 1 (.leaf 562514675056751467505725146750577514675058251467505875146750592514675059751467506025146750607514675061251467506175146750622514675062751467506325146750637514675064251467506475146750652514675065751467506625146750667514675067251467506775146750682514675068751467506925146750697514675070251467507075146750712514675071751467507225146750727514675073251467507375146750742514675074751467507525146750757514675076251467507675146750772514675077751467507825146750787514675079251467507975146750802514675080751467508125146750817514675082251467508275146750832514675083751467508425146750847514675085251467508575146750862514675086751467508725146750877514675)
 (.leaf 882514675088751467508925146750897514675090251467509075146750912514675091751467510025146751007514675103251467510375146751042514675104751467510525146751057514675106251467510675146751072514675107751467510825146751087514675109251467510975146751102514675110751467511125146751117514675112251467511275146751132514675113751467511425146751147514675115251467511575146751162514675116751467511725146751177514675118251467511875146751722514675172751467517325146751737514675174251467517475146751752514675175751467517625146751767514675177251467517775146751882514675188751467518925146751897514675190251467519075146751922514675192751467519325146751937514675))))
 (.node 4 (.node 2 (.node 1 (.leaf 1942514675194751467519525146751957514675196251467519675146751982514675201251467520175146752022514675202751467520325146752037514675204251467520475146752052514675205751467520625146752067514675207251467520775146752082514675208751467520925146752097514675210251467521075146752112514675211751467521225146752127514675213251467521375146752142514675214751467521525146752157514675216251467521675146752172514675217751467521825146752187514675219251467521975146752202514675220751467522125146752217514675222251467522275146752232514675223751467522425146752247514675225251467522575146752262514675226751467522725146752277514675228251467522875146752292514675)
 (.leaf 2297514675230251467523075146752312514675231751467523225146752327514675233251467523375146752342514675234751467523525146752357514675236251467523675146752372514675237751467523825146752387514675239251467523975146752402514675240751467524125146752417514675242251467524275146752432514675243751467524425146752447514675245251467524575146752462514675246751467524725146752477514675248251467524875146752492514675249751467525025146752507514675251251467525175146752522514675252751467525325146752537514675254251467525475146752552514675255751467525625146752567514675257251467525775146752582514675258751467525925146752597514675260251467526075146752612514675))
 (.node 1 (.leaf 2617514675262251467526275146752632514675263751467526425146752647514675265251467526575146752662514675266751467526725146752677514675268251467526875146752692514675269751467527025146752707514675271251467527175146752722514675272751467527325146752737514675274251467527475146752752514675275751467527625146752767514675277251467527775146752782514675278751467527925146752797514675280251467528075146752812514675281751467528225146752827514675283251467528375146752842514675284751467528525146752857514675286251467528675146752872514675287751467528825146752887514675289251467528975146752902514675290751467529125146752917514675292251467529275146752932514675)
 (.leaf 2937514675294251467529475146752952514675295751467529625146752967514675297251467529775146752982514675298751467529925146752997514675300251467530075146753012514675301751467530225146753027514675303251467530375146753042514675304751467530525146753057514675306251467530675146753072514675307751467530825146753087514675309251467530975146753102514675310751467531125146753117514675312251467531275146753132514675313751467531425146753147514675315251467531575146753162514675316751467531725146753177514675318251467531875146753362514675336751467533725146753377514675338251467533875146753392514675339751467534025146753407514675341251467534175146753422514675)))
 (.node 2 (.node 1 (.leaf 3427514675343251467501975146250202514625020751462502125146250217514625025251462502575146250452514625045751462504625146250467514625047251462504775146250482514625048751462504925146250497514625050251462505075146250512514625051751462505225146250527514625053251462505375146250542514625054751462505525146250557514625056251462505675146250572514625057751462505825146250587514625059251462505975146250602514625060751462506125146250617514625062251462506275146250632514625063751462506425146250647514625065251462506575146250662514625066751462506725146250677514625068251462506875146250692514625069751462507025146250707514625071251462507175146250722514625)
 (.leaf 727514625073251462507375146250742514625074751462507525146250757514625076251462507675146250772514625077751462507825146250787514625079251462507975146250802514625080751462508125146250817514625082251462508275146250832514625083751462508425146250847514625085251462508575146250862514625086751462508725146250877514625088251462508875146250892514625089751462509025146250907514625091251462509175146250922514625100251462510075146251012514625103251462510375146251042514625104751462510525146251057514625106251462510675146251072514625107751462510825146251087514625109251462510975146251102514625110751462511125146251117514625112251462511275146251132514625))
 (.node 1 (.leaf 1137514625114251462511475146251152514625115751462511625146251167514625117251462511775146251182514625118751462511925146251732514625173751462517425146251747514625175251462517575146251762514625176751462517725146251882514625188751462518925146251897514625190251462519075146251922514625192751462519325146251937514625194251462519475146251952514625195751462519625146251967514625201251462520175146252022514625202751462520325146252037514625204251462520475146252052514625205751462520625146252067514625207251462520775146252082514625208751462520925146252097514625210251462521075146252112514625211751462521225146252127514625213251462521375146252142514625)
 (.leaf 2147514625215251462521575146252162514625216751462521725146252177514625218251462521875146252192514625219751462522025146252207514625221251462522175146252222514625222751462522325146252237514625224251462522475146252252514625225751462522625146252267514625227251462522775146252282514625228751462522925146252297514625230251462523075146252312514625231751462523225146252327514625233251462523375146252342514625234751462523525146252357514625236251462523675146252372514625237751462523825146252387514625239251462523975146252402514625240751462524125146252417514625242251462524275146252432514625243751462524425146252447514625245251462524575146252462514625)))))))
 (.node 32 (.node 16 (.node 8 (.node 4 (.node 2 (.node 1 (.leaf 2467514625247251462524775146252482514625248751462524925146252497514625250251462525075146252512514625251751462525225146252527514625253251462525375146252542514625254751462525525146252557514625256251462525675146252572514625257751462525825146252587514625259251462525975146252602514625260751462526125146252617514625262251462526275146252632514625263751462526425146252647514625265251462526575146252662514625266751462526725146252677514625268251462526875146252692514625269751462527025146252707514625271251462527175146252722514625272751462527325146252737514625274251462527475146252752514625275751462527625146252767514625277251462527775146252782514625)
 (.leaf 2787514625279251462527975146252802514625280751462528125146252817514625282251462528275146252832514625283751462528425146252847514625285251462528575146252862514625286751462528725146252877514625288251462528875146252892514625289751462529025146252907514625291251462529175146252922514625292751462529325146252937514625294251462529475146252952514625295751462529625146252967514625297251462529775146252982514625298751462529925146252997514625300251462530075146253012514625301751462530225146253027514625303251462530375146253042514625304751462530525146253057514625306251462530675146253072514625307751462530825146253087514625309251462530975146253102514625))
 (.node 1 (.leaf 3107514625311251462531175146253122514625312751462531325146253137514625314251462531475146253152514625315751462531625146253167514625317251462531775146253182514625335751462533625146253367514625337251462533775146253382514625338751462533925146253397514625340251462534075146253412514625341751462534225146253427514625343251462501775145750182514575018751457501925145750197514575020251457502075145750212514575045751457504625145750467514575047251457504775145750482514575048751457504925145750497514575050251457505075145750512514575051751457505225145750527514575053251457505375145750542514575054751457505525145750557514575056251457505675145750572514575)
 (.leaf 577514575058251457505875145750592514575059751457506025145750607514575061251457506175145750622514575062751457506325145750637514575064251457506475145750652514575065751457506625145750667514575067251457506775145750682514575068751457506925145750697514575070251457507075145750712514575071751457507225145750727514575073251457507375145750742514575074751457507525145750757514575076251457507675145750772514575077751457507825145750787514575079251457507975145750802514575080751457508125145750817514575082251457508275145750832514575083751457508425145750847514575085251457508575145750862514575086751457508725145750877514575088251457508875145750892514575)))
 (.node 2 (.node 1 (.leaf 897514575090251457509075145750912514575091751457509225145750927514575093251457509375145750942514575100251457510075145751027514575103251457510375145751042514575104751457510525145751057514575106251457510675145751072514575107751457510825145751087514575109251457510975145751102514575110751457511125145751117514575112251457511275145751132514575113751457511425145751147514575115251457511575145751162514575116751457511725145751177514575118251457511875145751192514575119751457517375145751742514575174751457517525145751757514575176251457517675145751772514575177751457517825145751882514575188751457518925145751897514575190251457519075145751912514575)
 (.leaf 1917514575192251457519275145751932514575193751457519425145752012514575201751457520225145752027514575203251457520375145752042514575204751457520525145752057514575206251457520675145752072514575207751457520825145752087514575209251457520975145752102514575210751457521125145752117514575212251457521275145752132514575213751457521425145752147514575215251457521575145752162514575216751457521725145752177514575218251457521875145752192514575219751457522025145752207514575221251457522175145752222514575222751457522325145752237514575224251457522475145752252514575225751457522625145752267514575227251457522775145752282514575228751457522925145752297514575))
 (.node 1 (.leaf 2302514575230751457523125145752317514575232251457523275145752332514575233751457523425145752347514575235251457523575145752362514575236751457523725145752377514575238251457523875145752392514575239751457524025145752407514575241251457524175145752422514575242751457524325145752437514575244251457524475145752452514575245751457524625145752467514575247251457524775145752482514575248751457524925145752497514575250251457525075145752512514575251751457525225145752527514575253251457525375145752542514575254751457525525145752557514575256251457525675145752572514575257751457525825145752587514575259251457525975145752602514575260751457526125145752617514575)
 (.leaf 2622514575262751457526325145752637514575264251457526475145752652514575265751457526625145752667514575267251457526775145752682514575268751457526925145752697514575270251457527075145752712514575271751457527225145752727514575273251457527375145752742514575274751457527525145752757514575276251457527675145752772514575277751457527825145752787514575279251457527975145752802514575280751457528125145752817514575282251457528275145752832514575283751457528425145752847514575285251457528575145752862514575286751457528725145752877514575288251457528875145752892514575289751457529025145752907514575291251457529175145752922514575292751457529325145752937514575))))
 (.node 4 (.node 2 (.node 1 (.leaf 2942514575294751457529525145752957514575296251457529675145752972514575297751457529825145752987514575299251457529975145753002514575300751457530125145753017514575302251457530275145753032514575303751457530425145753047514575305251457530575145753062514575306751457530725145753077514575308251457530875145753092514575309751457531025145753107514575311251457531175145753122514575312751457531325145753137514575314251457531475145753152514575315751457531625145753167514575317251457533575145753362514575336751457533725145753377514575338251457533875145753392514575339751457534025145753407514575341251457534175145750167514525017251452501775145250182514525)
 (.leaf 187514525019251452502025145250462514525046751452504725145250477514525048251452504875145250492514525049751452505025145250507514525051251452505175145250522514525052751452505325145250537514525054251452505475145250552514525055751452505625145250567514525057251452505775145250582514525058751452505925145250597514525060251452506075145250612514525061751452506225145250627514525063251452506375145250642514525064751452506525145250657514525066251452506675145250672514525067751452506825145250687514525069251452506975145250702514525070751452507125145250717514525072251452507275145250732514525073751452507425145250747514525075251452507575145250762514525))
 (.node 1 (.leaf 767514525077251452507775145250782514525078751452507925145250797514525080251452508075145250812514525081751452508225145250827514525083251452508375145250842514525084751452508525145250857514525086251452508675145250872514525087751452508825145250887514525089251452508975145250902514525090751452509125145250917514525092251452509275145250932514525093751452509425145250947514525095251452509575145250962514525096751452509725145250977514525101751452510225145251027514525103251452510375145251042514525104751452510525145251057514525106251452510675145251072514525107751452510825145251087514525109251452510975145251102514525110751452511125145251117514525)
 (.leaf 1122514525112751452511325145251137514525114251452511475145251152514525115751452511625145251167514525117251452511775145251182514525118751452511925145251197514525120251452512075145251212514525171751452517225145251727514525173251452517375145251742514525174751452517525145251757514525176251452517675145251772514525177751452517825145251787514525188251452518875145251892514525189751452519025145251907514525191251452519175145251922514525192751452519325145251937514525194251452519475145251952514525201251452520175145252022514525202751452520325145252037514525204251452520475145252052514525205751452520625145252067514525207251452520775145252082514525)))
 (.node 2 (.node 1 (.leaf 2087514525209251452520975145252102514525210751452521125145252117514525212251452521275145252132514525213751452521425145252147514525215251452521575145252162514525216751452521725145252177514525218251452521875145252192514525219751452522025145252207514525221251452522175145252222514525222751452522325145252237514525224251452522475145252252514525225751452522625145252267514525227251452522775145252282514525228751452522925145252297514525230251452523075145252312514525231751452523225145252327514525233251452523375145252342514525234751452523525145252357514525236251452523675145252372514525237751452523825145252387514525239251452523975145252402514525)
 (.leaf 2407514525241251452524175145252422514525242751452524325145252437514525244251452524475145252452514525245751452524625145252467514525247251452524775145252482514525248751452524925145252497514525250251452525075145252512514525251751452525225145252527514525253251452525375145252542514525254751452525525145252557514525256251452525675145252572514525257751452525825145252587514525259251452525975145252602514525260751452526125145252617514525262251452526275145252632514525263751452526425145252647514525265251452526575145252662514525266751452526725145252677514525268251452526875145252692514525269751452527025145252707514525271251452527175145252722514525))
 (.node 1 (.leaf 2727514525273251452527375145252742514525274751452527525145252757514525276251452527675145252772514525277751452527825145252787514525279251452527975145252802514525280751452528125145252817514525282251452528275145252832514525283751452528425145252847514525285251452528575145252862514525286751452528725145252877514525288251452528875145252892514525289751452529025145252907514525291251452529175145252922514525292751452529325145252937514525294251452529475145252952514525295751452529625145252967514525297251452529775145252982514525298751452529925145252997514525300251452530075145253012514525301751452530225145253027514525303251452530375145253042514525)
 (.leaf 3047514525305251452530575145253062514525306751452530725145253077514525308251452530875145253092514525309751452531025145253107514525311251452531175145253122514525312751452531325145253137514525314251452531475145253152514525315751452531625145253172514525317751452533575145253362514525336751452533725145253377514525338251452533875145253392514525339751452534025145253407514525341251452534175145253457514525346251452501525144750157514475016251447501675144750172514475046251447504675144750472514475047751447504825144750487514475049251447504975144750502514475050751447505125144750517514475052251447505275144750532514475053751447505425144750547514475)))))
 (.node 8 (.node 4 (.node 2 (.node 1 (.leaf 552514475055751447505625144750567514475057251447505775144750582514475058751447505925144750597514475060251447506075144750612514475061751447506225144750627514475063251447506375144750642514475064751447506525144750657514475066251447506675144750672514475067751447506825144750687514475069251447506975144750702514475070751447507125144750717514475072251447507275144750732514475073751447507425144750747514475075251447507575144750762514475076751447507725144750777514475078251447507875144750792514475079751447508025144750807514475081251447508175144750822514475082751447508325144750837514475084251447508475144750852514475085751447508625144750867514475)
 (.leaf 872514475087751447508825144750887514475089251447508975144750902514475090751447509125144750917514475092251447509275144750932514475093751447509425144750947514475095251447509575144750962514475096751447509725144750977514475100251447510075144751012514475101751447510225144751027514475103251447510375144751042514475104751447510525144751057514475106251447510675144751072514475107751447510825144751087514475109251447510975144751102514475110751447511125144751117514475112251447511275144751132514475113751447511425144751147514475115251447511575144751162514475116751447511725144751177514475118251447511875144751192514475119751447512025144751207514475))
 (.node 1 (.leaf 1212514475121751447512225144751227514475171251447517175144751722514475172751447517325144751737514475174251447517475144751752514475175751447517625144751767514475177251447517775144751782514475178751447517925144751882514475188751447518925144751897514475190251447519075144751912514475191751447519225144751927514475193251447519375144751952514475196751447519725144751977514475198251447519875144751997514475200251447520075144752012514475201751447520225144752027514475203251447520375144752042514475204751447520525144752057514475206251447520675144752072514475207751447520825144752087514475209251447520975144752102514475210751447521125144752117514475)
 (.leaf 2122514475212751447521325144752137514475214251447521475144752152514475215751447521625144752167514475217251447521775144752182514475218751447521925144752197514475220251447522075144752212514475221751447522225144752227514475223251447522375144752242514475224751447522525144752257514475226251447522675144752272514475227751447522825144752287514475229251447522975144752302514475230751447523125144752317514475232251447523275144752332514475233751447523425144752347514475235251447523575144752362514475236751447523725144752377514475238251447523875144752392514475239751447524025144752407514475241251447524175144752422514475242751447524325144752437514475)))
 (.node 2 (.node 1 (.leaf 2442514475244751447524525144752457514475246251447524675144752472514475247751447524825144752487514475249251447524975144752502514475250751447525125144752517514475252251447525275144752532514475253751447525425144752547514475255251447525575144752562514475256751447525725144752577514475258251447525875144752592514475259751447526025144752607514475261251447526175144752622514475262751447526325144752637514475264251447526475144752652514475265751447526625144752667514475267251447526775144752682514475268751447526925144752697514475270251447527075144752712514475271751447527225144752727514475273251447527375144752742514475274751447527525144752757514475)
 (.leaf 2762514475276751447527725144752777514475278251447527875144752792514475279751447528025144752807514475281251447528175144752822514475282751447528325144752837514475284251447528475144752852514475285751447528625144752867514475287251447528775144752882514475288751447528925144752897514475290251447529075144752912514475291751447529225144752927514475293251447529375144752942514475294751447529525144752957514475296251447529675144752972514475297751447529825144752987514475299251447529975144753002514475300751447530125144753017514475302251447530275144753032514475303751447530425144753047514475305251447530575144753062514475306751447530725144753077514475))
 (.node 1 (.leaf 3082514475308751447530925144753097514475310251447531075144753112514475311751447531225144753127514475313251447531375144753142514475314751447531525144753157514475316251447531675144753172514475317751447531825144753357514475336251447533675144753372514475337751447533825144753387514475339251447533975144753402514475340751447534125144753417514475342251447534625144753467514475347251447534775144750142514425014751442501525144250467514425047251442504775144250482514425049251442504975144250502514425050751442505125144250517514425052251442505275144250532514425053751442505425144250547514425055251442505575144250562514425056751442505725144250577514425)
 (.leaf 582514425058751442505925144250597514425060251442506075144250612514425061751442506225144250627514425063251442506375144250642514425064751442506525144250657514425066251442506675144250672514425067751442506825144250687514425069251442506975144250702514425070751442507125144250717514425072251442507275144250732514425073751442507425144250747514425075251442507575144250762514425076751442507725144250777514425078251442507875144250792514425079751442508025144250807514425081251442508175144250822514425082751442508325144250837514425084251442508475144250852514425085751442508625144250867514425087251442508775144250882514425088751442508925144250897514425))))
 (.node 4 (.node 2 (.node 1 (.leaf 902514425090751442509125144250917514425092251442509275144250932514425093751442509425144250947514425095251442509575144250962514425096751442509725144250977514425100751442510125144251017514425102251442510275144251032514425103751442510425144251047514425105251442510575144251062514425106751442510725144251077514425108251442510875144251092514425109751442511025144251107514425111251442511175144251122514425112751442511325144251137514425114251442511475144251152514425115751442511625144251167514425117251442511775144251182514425118751442511925144251197514425120251442512075144251212514425121751442512225144251227514425169751442517025144251707514425)
 (.leaf 1712514425171751442517225144251727514425173251442517375144251742514425174751442517525144251757514425176251442517675144251772514425177751442517825144251787514425179251442517975144251887514425189251442518975144251902514425190751442519125144251917514425192251442519275144251932514425193751442519425144251947514425195251442519575144251962514425196751442519725144251977514425198251442519875144251992514425199751442520025144252007514425201251442520175144252022514425202751442520325144252037514425204251442520475144252052514425205751442520625144252067514425207251442520775144252082514425208751442520925144252097514425210251442521075144252112514425))
 (.node 1 (.leaf 2117514425212251442521275144252132514425213751442521425144252147514425215251442521575144252162514425216751442521725144252177514425218251442521875144252192514425219751442522025144252207514425221251442522175144252222514425222751442522325144252237514425224251442522475144252252514425225751442522625144252267514425227251442522775144252282514425228751442522925144252297514425230251442523075144252312514425231751442523225144252327514425233251442523375144252342514425234751442523525144252357514425236251442523675144252372514425237751442523825144252387514425239251442523975144252402514425240751442524125144252417514425242251442524275144252432514425)
 (.leaf 2437514425244251442524475144252452514425245751442524625144252467514425247251442524775144252482514425248751442524925144252497514425250251442525075144252512514425251751442525225144252527514425253251442525375144252542514425254751442525525144252557514425256251442525675144252572514425257751442525825144252587514425259251442525975144252602514425260751442526125144252617514425262251442526275144252632514425263751442526425144252647514425265251442526575144252662514425266751442526725144252677514425268251442526875144252692514425269751442527025144252707514425271251442527175144252722514425272751442527325144252737514425274251442527475144252752514425)))
 (.node 2 (.node 1 (.leaf 2757514425276251442527675144252772514425277751442527825144252787514425279251442527975144252802514425280751442528125144252817514425282251442528275144252832514425283751442528425144252847514425285251442528575144252862514425286751442528725144252877514425288251442528875144252892514425289751442529025144252907514425291251442529175144252922514425292751442529325144252937514425294251442529475144252952514425295751442529625144252967514425297251442529775144252982514425298751442529925144252997514425300251442530075144253012514425301751442530225144253027514425303251442530375144253042514425304751442530525144253057514425306251442530675144253072514425)
 (.leaf 3077514425308251442530875144253092514425309751442531025144253107514425311251442531175144253122514425312751442531325144253137514425314251442531475144253152514425315751442531625144253167514425317251442531775144253187514425319251442531975144253202514425322251442532275144253357514425336251442533675144253372514425337751442533825144253387514425339251442533975144253402514425340751442534125144250127514375013251437501375143750467514375047251437504775143750482514375049251437504975143750502514375050751437505125143750517514375052251437505275143750532514375053751437505425143750547514375055251437505575143750562514375056751437505725143750577514375))
 (.node 1 (.leaf 582514375058751437505925143750597514375060251437506075143750612514375061751437506225143750627514375063251437506375143750642514375064751437506525143750657514375066251437506675143750672514375067751437506825143750687514375069251437506975143750702514375070751437507125143750717514375072251437507275143750732514375073751437507425143750747514375075251437507575143750762514375076751437507725143750777514375078251437507875143750792514375079751437508025143750807514375081251437508175143750822514375082751437508325143750837514375084251437508475143750852514375085751437508625143750867514375087251437508775143750882514375088751437508925143750897514375)
 (.leaf 902514375090751437509125143750917514375092251437509275143750932514375093751437509425143750947514375095251437509575143750962514375096751437509725143750977514375100751437510125143751017514375102251437510275143751032514375103751437510425143751047514375105251437510575143751062514375106751437510725143751077514375108251437510875143751092514375109751437511025143751107514375111251437511175143751122514375112751437511325143751137514375114251437511475143751152514375115751437511625143751167514375117251437511775143751182514375118751437511925143751197514375120251437512075143751212514375121751437512225143751227514375123251437512375143751612514375))))))
 (.node 16 (.node 8 (.node 4 (.node 2 (.node 1 (.leaf 1697514375170251437517075143751712514375171751437517225143751727514375173251437517375143751767514375177251437517775143751782514375178751437517925143751797514375180251437518725143751877514375188251437518875143751892514375189751437519025143751907514375191251437519175143751922514375192751437519325143751937514375194251437519475143751952514375195751437519625143751967514375197251437519775143751982514375198751437519925143751997514375200251437520075143752012514375201751437520225143752027514375203251437520375143752042514375204751437520525143752057514375206251437520675143752072514375207751437520825143752087514375209251437520975143752102514375)
 (.leaf 2107514375211251437521175143752122514375212751437521325143752137514375214251437521475143752152514375215751437521625143752167514375217251437521775143752182514375218751437521925143752197514375220251437522075143752212514375221751437522225143752227514375223251437522375143752242514375224751437522525143752257514375226251437522675143752272514375227751437522825143752287514375229251437522975143752302514375230751437523125143752317514375232251437523275143752332514375233751437523425143752347514375235251437523575143752362514375236751437523725143752377514375238251437523875143752392514375239751437524025143752407514375241251437524175143752422514375))
 (.node 1 (.leaf 2427514375243251437524375143752442514375244751437524525143752457514375246251437524675143752472514375247751437524825143752487514375249251437524975143752502514375250751437525125143752517514375252251437525275143752532514375253751437525425143752547514375255251437525575143752562514375256751437525725143752577514375258251437525875143752592514375259751437526025143752607514375261251437526175143752622514375262751437526325143752637514375264251437526475143752652514375265751437526625143752667514375267251437526775143752682514375268751437526925143752697514375270251437527075143752712514375271751437527225143752727514375273251437527375143752742514375)
 (.leaf 2747514375275251437527575143752762514375276751437527725143752777514375278251437527875143752792514375279751437528025143752807514375281251437528175143752822514375282751437528325143752837514375284251437528475143752852514375285751437528625143752867514375287251437528775143752882514375288751437528925143752897514375290251437529075143752912514375291751437529225143752927514375293251437529375143752942514375294751437529525143752957514375296251437529675143752972514375297751437529825143752987514375299251437529975143753002514375300751437530125143753017514375302251437530275143753032514375303751437530425143753047514375305251437530575143753062514375)))
 (.node 2 (.node 1 (.leaf 3067514375307251437530775143753082514375308751437530925143753097514375310251437531075143753112514375311751437531225143753127514375313251437531375143753142514375314751437531525143753157514375316251437531675143753172514375317751437531825143753187514375319251437531975143753202514375320751437532275143753357514375336251437533675143753372514375337751437533825143753387514375339251437533975143750112514325011751432501225143250127514325013251432504725143250477514325048251432504975143250502514325050751432505125143250517514325052251432505275143250532514325053751432505425143250547514325055251432505575143250562514325056751432505725143250577514325)
 (.leaf 582514325058751432505925143250597514325060251432506075143250612514325061751432506225143250627514325063251432506375143250642514325064751432506525143250657514325066251432506675143250672514325067751432506825143250687514325069251432506975143250702514325070751432507125143250717514325072251432507275143250732514325073751432507425143250747514325075251432507575143250762514325076751432507725143250777514325078251432507875143250792514325079751432508025143250807514325081251432508175143250822514325082751432508325143250837514325084251432508475143250852514325085751432508625143250867514325087251432508775143250882514325088751432508925143250897514325))
 (.node 1 (.leaf 902514325090751432509125143250917514325092251432509275143250932514325093751432509425143250947514325095251432509575143250962514325096751432509725143250977514325098251432509875143251002514325100751432510125143251017514325102251432510275143251032514325103751432510425143251047514325105251432510575143251062514325106751432510725143251077514325108251432510875143251092514325109751432511025143251107514325111251432511175143251122514325112751432511325143251137514325114251432511475143251152514325115751432511625143251167514325117251432511775143251182514325118751432511925143251197514325120251432512075143251212514325121751432512225143251227514325)
 (.leaf 1232514325123751432512425143251697514325170251432517075143251712514325171751432517225143251727514325173251432517375143251752514325175751432517625143251767514325177251432517775143251782514325178751432517925143251797514325180251432518475143251852514325185751432518625143251867514325187251432518775143251882514325188751432518925143251897514325190251432519075143251912514325191751432519225143251927514325193251432519375143251942514325194751432519525143251957514325196251432519675143251972514325197751432519825143251987514325199251432519975143252002514325200751432520125143252017514325202251432520275143252032514325203751432520425143252047514325))))
 (.node 4 (.node 2 (.node 1 (.leaf 2052514325205751432520625143252067514325207251432520775143252082514325208751432520925143252097514325210251432521075143252112514325211751432521225143252127514325213251432521375143252142514325214751432521525143252157514325216251432521675143252172514325217751432521825143252187514325219251432521975143252202514325220751432522125143252217514325222251432522275143252232514325223751432522425143252247514325225251432522575143252262514325226751432522725143252277514325228251432522875143252292514325229751432523025143252307514325231251432523175143252322514325232751432523325143252337514325234251432523475143252352514325235751432523625143252367514325)
 (.leaf 2372514325237751432523825143252387514325239251432523975143252402514325240751432524125143252417514325242251432524275143252432514325243751432524425143252447514325245251432524575143252462514325246751432524725143252477514325248251432524875143252492514325249751432525025143252507514325251251432525175143252522514325252751432525325143252537514325254251432525475143252552514325255751432525625143252567514325257251432525775143252582514325258751432525925143252597514325260251432526075143252612514325261751432526225143252627514325263251432526375143252642514325264751432526525143252657514325266251432526675143252672514325267751432526825143252687514325))
 (.node 1 (.leaf 2692514325269751432527025143252707514325271251432527175143252722514325272751432527325143252737514325274251432527475143252752514325275751432527625143252767514325277251432527775143252782514325278751432527925143252797514325280251432528075143252812514325281751432528225143252827514325283251432528375143252842514325284751432528525143252857514325286251432528675143252872514325287751432528825143252887514325289251432528975143252902514325290751432529125143252917514325292251432529275143252932514325293751432529425143252947514325295251432529575143252962514325296751432529725143252977514325298251432529875143252992514325299751432530025143253007514325)
 (.leaf 3012514325301751432530225143253027514325303251432530375143253042514325304751432530525143253057514325306251432530675143253072514325307751432530825143253087514325309251432530975143253102514325310751432531125143253117514325312251432531275143253132514325313751432531425143253147514325315251432531575143253162514325316751432531725143253177514325318251432531875143253192514325319751432532025143253207514325321251432532175143253222514325322751432532325143253362514325336751432533725143253377514325338251432533875143253392514325339751432501025142750477514275048251427504875142750507514275051251427505175142750522514275052751427505325142750537514275)))
 (.node 2 (.node 1 (.leaf 542514275054751427505525142750557514275056251427505675142750572514275057751427505825142750587514275059251427505975142750602514275060751427506125142750617514275062251427506275142750632514275063751427506425142750647514275065251427506575142750662514275066751427506725142750677514275068251427506875142750692514275069751427507025142750707514275071251427507175142750722514275072751427507325142750737514275074251427507475142750752514275075751427507625142750767514275077251427507775142750782514275078751427507925142750797514275080251427508075142750812514275081751427508225142750827514275083251427508375142750842514275084751427508525142750857514275)
 (.leaf 862514275086751427508725142750877514275088251427508875142750892514275089751427509025142750907514275091251427509175142750922514275092751427509325142750937514275094251427509475142750952514275095751427509625142750967514275097251427509775142750982514275098751427509925142751012514275101751427510225142751027514275103251427510375142751042514275104751427510525142751057514275106251427510675142751072514275107751427510825142751087514275109251427510975142751102514275110751427511125142751117514275112251427511275142751132514275113751427511425142751147514275115251427511575142751162514275116751427511725142751177514275118251427511875142751192514275))
 (.node 1 (.leaf 1197514275120251427512075142751212514275121751427512225142751227514275123251427512375142751242514275144251427514475142751702514275170751427517125142751717514275172251427517275142751732514275173751427517525142751757514275176251427517675142751772514275177751427517825142751787514275179251427517975142751802514275180751427518125142751817514275184751427518575142751862514275186751427518725142751877514275188251427518875142751892514275189751427519025142751907514275191251427519175142751922514275192751427519325142751937514275194251427519475142751952514275195751427519625142751967514275197251427519775142751982514275198751427519925142751997514275)
 (.leaf 2002514275200751427520125142752017514275202251427520275142752032514275203751427520425142752047514275205251427520575142752062514275206751427520725142752077514275208251427520875142752092514275209751427521025142752107514275211251427521175142752122514275212751427521325142752137514275214251427521475142752152514275215751427521625142752167514275217251427521775142752182514275218751427521925142752197514275220251427522075142752212514275221751427522225142752227514275223251427522375142752242514275224751427522525142752257514275226251427522675142752272514275227751427522825142752287514275229251427522975142752302514275230751427523125142752317514275)))))
 (.node 8 (.node 4 (.node 2 (.node 1 (.leaf 2322514275232751427523325142752337514275234251427523475142752352514275235751427523625142752367514275237251427523775142752382514275238751427523925142752397514275240251427524075142752412514275241751427524225142752427514275243251427524375142752442514275244751427524525142752457514275246251427524675142752472514275247751427524825142752487514275249251427524975142752502514275250751427525125142752517514275252251427525275142752532514275253751427525425142752547514275255251427525575142752562514275256751427525725142752577514275258251427525875142752592514275259751427526025142752607514275261251427526175142752622514275262751427526325142752637514275)
 (.leaf 2642514275264751427526525142752657514275266251427526675142752672514275267751427526825142752687514275269251427526975142752702514275270751427527125142752717514275272251427527275142752732514275273751427527425142752747514275275251427527575142752762514275276751427527725142752777514275278251427527875142752792514275279751427528025142752807514275281251427528175142752822514275282751427528325142752837514275284251427528475142752852514275285751427528625142752867514275287251427528775142752882514275288751427528925142752897514275290251427529075142752912514275291751427529225142752927514275293251427529375142752942514275294751427529525142752957514275))
 (.node 1 (.leaf 2962514275296751427529725142752977514275298251427529875142752992514275299751427530025142753007514275301251427530175142753022514275302751427530325142753037514275304251427530475142753052514275305751427530625142753067514275307251427530775142753082514275308751427530925142753097514275310251427531075142753112514275311751427531225142753127514275313251427531375142753142514275314751427531525142753157514275316251427531675142753172514275317751427531825142753187514275319251427531975142753202514275320751427532125142753217514275322251427532275142753232514275336251427533675142753372514275337751427533825142753387514275352751427535325142753542514275)
 (.leaf 52514225005751422500625142250067514225048251422504875142250492514225051251422505175142250522514225052751422505325142250537514225054251422505475142250552514225055751422505625142250567514225057251422505775142250582514225058751422505925142250597514225060251422506075142250612514225061751422506225142250627514225063251422506375142250642514225064751422506525142250657514225066251422506675142250672514225067751422506825142250687514225069251422506975142250702514225070751422507125142250717514225072251422507275142250732514225073751422507425142250747514225075251422507575142250762514225076751422507725142250777514225078251422507875142250792514225)))
 (.node 2 (.node 1 (.leaf 797514225080251422508075142250812514225081751422508225142250827514225083251422508375142250842514225084751422508525142250857514225086251422508675142250872514225087751422508825142250887514225089251422508975142250902514225090751422509125142250917514225092251422509275142250932514225093751422509425142250947514225095251422509575142250962514225096751422509725142250977514225098251422509875142251012514225101751422510225142251027514225103251422510375142251042514225104751422510525142251057514225106251422510675142251072514225107751422510825142251087514225109251422510975142251102514225110751422511125142251117514225112251422511275142251132514225)
 (.leaf 1137514225114251422511475142251152514225115751422511625142251167514225117251422511775142251182514225118751422511925142251197514225120251422512075142251212514225121751422512225142251227514225123251422512375142251242514225169751422517025142251707514225171251422517175142251722514225172751422517325142251737514225174751422517525142251757514225176251422517675142251772514225177751422517825142251787514225179251422517975142251802514225180751422518125142251817514225184251422518475142251852514225185751422518625142251867514225187251422518775142251882514225188751422518925142251897514225190251422519075142251912514225191751422519225142251927514225))
 (.node 1 (.leaf 1932514225193751422519425142251947514225195251422519575142251962514225196751422519725142251977514225198251422519875142251992514225199751422520025142252007514225201251422520175142252022514225202751422520325142252037514225204251422520475142252052514225205751422520625142252067514225207251422520775142252082514225208751422520925142252097514225210251422521075142252112514225211751422521225142252127514225213251422521375142252142514225214751422521525142252157514225216251422521675142252172514225217751422521825142252187514225219251422521975142252202514225220751422522125142252217514225222251422522275142252232514225223751422522425142252247514225)
 (.leaf 2252514225225751422522625142252267514225227251422522775142252282514225228751422522925142252297514225230251422523075142252312514225231751422523225142252327514225233251422523375142252342514225234751422523525142252357514225236251422523675142252372514225237751422523825142252387514225239251422523975142252402514225240751422524125142252417514225242251422524275142252432514225243751422524425142252447514225245251422524575142252462514225246751422524725142252477514225248251422524875142252492514225249751422525025142252507514225251251422525175142252522514225252751422525325142252537514225254251422525475142252552514225255751422525625142252567514225))))
 (.node 4 (.node 2 (.node 1 (.leaf 2572514225257751422525825142252587514225259251422525975142252602514225260751422526125142252617514225262251422526275142252632514225263751422526425142252647514225265251422526575142252662514225266751422526725142252677514225268251422526875142252692514225269751422527025142252707514225271251422527175142252722514225272751422527325142252737514225274251422527475142252752514225275751422527625142252767514225277251422527775142252782514225278751422527925142252797514225280251422528075142252812514225281751422528225142252827514225283251422528375142252842514225284751422528525142252857514225286251422528675142252872514225287751422528825142252887514225)
 (.leaf 2892514225289751422529025142252907514225291251422529175142252922514225292751422529325142252937514225294251422529475142252952514225295751422529625142252967514225297251422529775142252982514225298751422529925142252997514225300251422530075142253012514225301751422530225142253027514225303251422530375142253042514225304751422530525142253057514225306251422530675142253072514225307751422530825142253087514225309251422530975142253102514225310751422531125142253117514225312251422531275142253132514225313751422531425142253147514225315251422531575142253162514225316751422531725142253177514225318251422531875142253192514225319751422532025142253207514225))
 (.node 1 (.leaf 3212514225321751422532225142253227514225323251422533625142253367514225337251422533775142253382514225353251422535375142253577514225002251417500275141750032514175048751417504925141750517514175052251417505275141750532514175053751417505425141750547514175055251417505575141750562514175056751417505725141750577514175058251417505875141750592514175059751417506025141750607514175061251417506175141750622514175062751417506325141750637514175064251417506475141750652514175065751417506625141750667514175067251417506775141750682514175068751417506925141750697514175070251417507075141750712514175071751417507225141750727514175073251417507375141750742514175)
 (.leaf 747514175075251417507575141750762514175076751417507725141750777514175078251417507875141750792514175079751417508025141750807514175081251417508175141750822514175082751417508325141750837514175084251417508475141750852514175085751417508625141750867514175087251417508775141750882514175088751417508925141750897514175090251417509075141750912514175091751417509225141750927514175093251417509375141750942514175094751417509525141750957514175096251417509675141750972514175097751417509825141750987514175099251417510025141751007514175101251417510175141751022514175102751417510325141751037514175104251417510475141751052514175105751417510625141751067514175)))
 (.node 2 (.node 1 (.leaf 1072514175107751417510825141751087514175109251417510975141751102514175110751417511125141751117514175112251417511275141751132514175113751417511425141751147514175115251417511575141751162514175116751417511725141751177514175118251417511875141751192514175119751417512025141751207514175121251417512175141751222514175122751417512325141751237514175124251417512475141751697514175170251417517075141751712514175171751417517225141751747514175175251417517575141751762514175176751417517725141751777514175178251417517875141751792514175179751417518025141751807514175181251417518375141751842514175184751417518525141751857514175186251417518675141751872514175)
 (.leaf 1877514175188251417518875141751892514175189751417519025141751907514175191251417519175141751922514175192751417519325141751937514175194251417519475141751952514175195751417519625141751967514175197251417519775141751982514175198751417519925141751997514175200251417520075141752012514175201751417520225141752027514175203251417520375141752042514175204751417520525141752057514175206251417520675141752072514175207751417520825141752087514175209251417520975141752102514175210751417521125141752117514175212251417521275141752132514175213751417521425141752147514175215251417521575141752162514175216751417521725141752177514175218251417521875141752192514175))
 (.node 1 (.leaf 2197514175220251417522075141752212514175221751417522225141752227514175223251417522375141752242514175224751417522525141752257514175226251417522675141752272514175227751417522825141752287514175229251417522975141752302514175230751417523125141752317514175232251417523275141752332514175233751417523425141752347514175235251417523575141752362514175236751417523725141752377514175238251417523875141752392514175239751417524025141752407514175241251417524175141752422514175242751417524325141752437514175244251417524475141752452514175245751417524625141752467514175247251417524775141752482514175248751417524925141752497514175250251417525075141752512514175)
 (.leaf 2517514175252251417525275141752532514175253751417525425141752547514175255251417525575141752562514175256751417525725141752577514175258251417525875141752592514175259751417526025141752607514175261251417526175141752622514175262751417526325141752637514175264251417526475141752652514175265751417526625141752667514175267251417526775141752682514175268751417526925141752697514175270251417527075141752712514175271751417527225141752727514175273251417527375141752742514175274751417527525141752757514175276251417527675141752772514175277751417527825141752787514175279251417527975141752802514175280751417528125141752817514175282251417528275141752832514175))))))))
 (.node 64 (.node 32 (.node 16 (.node 8 (.node 4 (.node 2 (.node 1 (.leaf 2837514175284251417528475141752852514175285751417528625141752867514175287251417528775141752882514175288751417528925141752897514175290251417529075141752912514175291751417529225141752927514175293251417529375141752942514175294751417529525141752957514175296251417529675141752972514175297751417529825141752987514175299251417529975141753002514175300751417530125141753017514175302251417530275141753032514175303751417530425141753047514175305251417530575141753062514175306751417530725141753077514175308251417530875141753092514175309751417531025141753107514175311251417531175141753122514175312751417531325141753137514175314251417531475141753152514175)
 (.leaf 3157514175316251417531675141753172514175317751417531825141753187514175319251417531975141753202514175320751417532125141753217514175322251417532275141753232514175336751417533725141753377514175338251417535875141753597514175051751412505225141250527514125053251412505375141250542514125054751412505525141250557514125056251412505675141250572514125057751412505825141250587514125059251412505975141250602514125060751412506125141250617514125062251412506275141250632514125063751412506425141250647514125065251412506575141250662514125066751412506725141250677514125068251412506875141250692514125069751412507025141250707514125071251412507175141250722514125))
 (.node 1 (.leaf 727514125073251412507375141250742514125074751412507525141250757514125076251412507675141250772514125077751412507825141250787514125079251412507975141250802514125080751412508125141250817514125082251412508275141250832514125083751412508425141250847514125085251412508575141250862514125086751412508725141250877514125088251412508875141250892514125089751412509025141250907514125091251412509175141250922514125092751412509325141250937514125094251412509475141250952514125095751412509625141250967514125097251412509775141250982514125098751412509925141250997514125100251412510075141251012514125101751412510225141251027514125103251412510375141251042514125)
 (.leaf 1047514125105251412510575141251062514125106751412510725141251077514125108251412510875141251092514125109751412511025141251107514125111251412511175141251122514125112751412511325141251137514125114251412511475141251152514125115751412511625141251167514125117251412511775141251182514125118751412511925141251197514125120251412512075141251212514125121751412512225141251227514125123251412512375141251242514125170251412517575141251762514125176751412517725141251777514125178251412517875141251792514125179751412518025141251807514125181251412518225141251827514125183251412518375141251842514125184751412518525141251857514125186251412518675141251872514125)))
 (.node 2 (.node 1 (.leaf 1877514125188251412518875141251892514125189751412519025141251907514125191251412519175141251922514125192751412519325141251937514125194251412519475141251952514125195751412519625141251967514125197251412519775141251982514125198751412519925141251997514125200251412520075141252012514125201751412520225141252027514125203251412520375141252042514125204751412520525141252057514125206251412520675141252072514125207751412520825141252087514125209251412520975141252102514125210751412521125141252117514125212251412521275141252132514125213751412521425141252147514125215251412521575141252162514125216751412521725141252177514125218251412521875141252192514125)
 (.leaf 2197514125220251412522075141252212514125221751412522225141252227514125223251412522375141252242514125224751412522525141252257514125226251412522675141252272514125227751412522825141252287514125229251412522975141252302514125230751412523125141252317514125232251412523275141252332514125233751412523425141252347514125235251412523575141252362514125236751412523725141252377514125238251412523875141252392514125239751412524025141252407514125241251412524175141252422514125242751412524325141252437514125244251412524475141252452514125245751412524625141252467514125247251412524775141252482514125248751412524925141252497514125250251412525075141252512514125))
 (.node 1 (.leaf 2517514125252251412525275141252532514125253751412525425141252547514125255251412525575141252562514125256751412525725141252577514125258251412525875141252592514125259751412526025141252607514125261251412526175141252622514125262751412526325141252637514125264251412526475141252652514125265751412526625141252667514125267251412526775141252682514125268751412526925141252697514125270251412527075141252712514125271751412527225141252727514125273251412527375141252742514125274751412527525141252757514125276251412527675141252772514125277751412527825141252787514125279251412527975141252802514125280751412528125141252817514125282251412528275141252832514125)
 (.leaf 2837514125284251412528475141252852514125285751412528625141252867514125287251412528775141252882514125288751412528925141252897514125290251412529075141252912514125291751412529225141252927514125293251412529375141252942514125294751412529525141252957514125296251412529675141252972514125297751412529825141252987514125299251412529975141253002514125300751412530125141253017514125302251412530275141253032514125303751412530425141253047514125305251412530575141253062514125306751412530725141253077514125308251412530875141253092514125309751412531025141253107514125311251412531175141253122514125312751412531325141253137514125314251412531475141253152514125))))
 (.node 4 (.node 2 (.node 1 (.leaf 3157514125316251412531675141253172514125317751412531825141253187514125319251412531975141253202514125320751412532225141253227514125323251412533675141253372514125337751412505175140750522514075052751407505325140750537514075054251407505475140750552514075055751407505625140750567514075057251407505775140750582514075058751407505925140750597514075060251407506075140750612514075061751407506225140750627514075063251407506375140750642514075064751407506525140750657514075066251407506675140750672514075067751407506825140750687514075069251407506975140750702514075070751407507125140750717514075072251407507275140750732514075073751407507425140750747514075)
 (.leaf 752514075075751407507625140750767514075077251407507775140750782514075078751407507925140750797514075080251407508075140750812514075081751407508225140750827514075083251407508375140750842514075084751407508525140750857514075086251407508675140750872514075087751407508825140750887514075089251407508975140750902514075090751407509125140750917514075092251407509275140750932514075093751407509425140750947514075095251407509575140750962514075096751407509725140750977514075098251407509875140750992514075099751407510025140751007514075101251407510175140751022514075102751407510325140751037514075104251407510475140751052514075105751407510625140751067514075))
 (.node 1 (.leaf 1072514075107751407510825140751087514075109251407510975140751102514075110751407511125140751117514075112251407511275140751132514075113751407511425140751147514075115251407511575140751162514075116751407511725140751177514075118251407511875140751192514075119751407512025140751207514075121251407512275140751232514075123751407512425140751752514075175751407517625140751767514075177251407517775140751782514075178751407517925140751797514075180251407518075140751817514075182251407518275140751832514075183751407518425140751847514075185251407518575140751862514075186751407518725140751877514075188251407518875140751892514075189751407519025140751907514075)
 (.leaf 1912514075191751407519225140751927514075193251407519375140751942514075194751407519525140751957514075196251407519675140751972514075197751407519825140751987514075199251407519975140752002514075200751407520125140752017514075202251407520275140752032514075203751407520425140752047514075205251407520575140752062514075206751407520725140752077514075208251407520875140752092514075209751407521025140752107514075211251407521175140752122514075212751407521325140752137514075214251407521475140752152514075215751407521625140752167514075217251407521775140752182514075218751407521925140752197514075220251407522075140752212514075221751407522225140752227514075)))
 (.node 2 (.node 1 (.leaf 2232514075223751407522425140752247514075225251407522575140752262514075226751407522725140752277514075228251407522875140752292514075229751407523025140752307514075231251407523175140752322514075232751407523325140752337514075234251407523475140752352514075235751407523625140752367514075237251407523775140752382514075238751407523925140752397514075240251407524075140752412514075241751407524225140752427514075243251407524375140752442514075244751407524525140752457514075246251407524675140752472514075247751407524825140752487514075249251407524975140752502514075250751407525125140752517514075252251407525275140752532514075253751407525425140752547514075)
 (.leaf 2552514075255751407525625140752567514075257251407525775140752582514075258751407525925140752597514075260251407526075140752612514075261751407526225140752627514075263251407526375140752642514075264751407526525140752657514075266251407526675140752672514075267751407526825140752687514075269251407526975140752702514075270751407527125140752717514075272251407527275140752732514075273751407527425140752747514075275251407527575140752762514075276751407527725140752777514075278251407527875140752792514075279751407528025140752807514075281251407528175140752822514075282751407528325140752837514075284251407528475140752852514075285751407528625140752867514075))
 (.node 1 (.leaf 2872514075287751407528825140752887514075289251407528975140752902514075290751407529125140752917514075292251407529275140752932514075293751407529425140752947514075295251407529575140752962514075296751407529725140752977514075298251407529875140752992514075299751407530025140753007514075301251407530175140753022514075302751407530325140753037514075304251407530475140753052514075305751407530625140753067514075307251407530775140753082514075308751407530925140753097514075310251407531075140753112514075311751407531225140753127514075313251407531375140753142514075314751407531525140753157514075316251407531675140753172514075317751407531825140753187514075)
 (.leaf 3192514075319751407532025140753207514075322251407532275140753232514075323751407533575140753362514075336751407505175140250522514025052751402505325140250537514025054251402505475140250552514025055751402505625140250567514025057251402505775140250582514025058751402505925140250597514025060251402506075140250612514025061751402506225140250627514025063251402506375140250642514025064751402506525140250657514025066251402506675140250672514025067751402506825140250687514025069251402506975140250702514025070751402507125140250717514025072251402507275140250732514025073751402507425140250747514025075251402507575140250762514025076751402507725140250777514025)))))
 (.node 8 (.node 4 (.node 2 (.node 1 (.leaf 782514025078751402507925140250797514025080251402508075140250812514025081751402508225140250827514025083251402508375140250842514025084751402508525140250857514025086251402508675140250872514025087751402508825140250887514025089251402508975140250902514025090751402509125140250917514025092251402509275140250932514025093751402509425140250947514025095251402509575140250962514025096751402509725140250977514025098251402509875140250992514025099751402510025140251007514025101251402510175140251022514025102751402510325140251037514025104251402510475140251052514025105751402510625140251067514025107251402510775140251082514025108751402510925140251097514025)
 (.leaf 1102514025110751402511125140251117514025112251402511275140251132514025113751402511425140251147514025115251402511575140251162514025116751402511725140251177514025118251402511875140251192514025119751402512025140251222514025122751402512325140251237514025124251402517425140251747514025175251402517575140251762514025181251402518175140251822514025182751402518325140251837514025184251402518475140251852514025185751402518625140251867514025187251402518775140251882514025188751402518925140251897514025190251402519075140251912514025191751402519225140251927514025193251402519375140251942514025194751402519525140251957514025196251402519675140251972514025))
 (.node 1 (.leaf 1977514025198251402519875140251992514025199751402520025140252007514025201251402520175140252022514025202751402520325140252037514025204251402520475140252052514025205751402520625140252067514025207251402520775140252082514025208751402520925140252097514025210251402521075140252112514025211751402521225140252127514025213251402521375140252142514025214751402521525140252157514025216251402521675140252172514025217751402521825140252187514025219251402521975140252202514025220751402522125140252217514025222251402522275140252232514025223751402522425140252247514025225251402522575140252262514025226751402522725140252277514025228251402522875140252292514025)
 (.leaf 2297514025230251402523075140252312514025231751402523225140252327514025233251402523375140252342514025234751402523525140252357514025236251402523675140252372514025237751402523825140252387514025239251402523975140252402514025240751402524125140252417514025242251402524275140252432514025243751402524425140252447514025245251402524575140252462514025246751402524725140252477514025248251402524875140252492514025249751402525025140252507514025251251402525175140252522514025252751402525325140252537514025254251402525475140252552514025255751402525625140252567514025257251402525775140252582514025258751402525925140252597514025260251402526075140252612514025)))
 (.node 2 (.node 1 (.leaf 2617514025262251402526275140252632514025263751402526425140252647514025265251402526575140252662514025266751402526725140252677514025268251402526875140252692514025269751402527025140252707514025271251402527175140252722514025272751402527325140252737514025274251402527475140252752514025275751402527625140252767514025277251402527775140252782514025278751402527925140252797514025280251402528075140252812514025281751402528225140252827514025283251402528375140252842514025284751402528525140252857514025286251402528675140252872514025287751402528825140252887514025289251402528975140252902514025290751402529125140252917514025292251402529275140252932514025)
 (.leaf 2937514025294251402529475140252952514025295751402529625140252967514025297251402529775140252982514025298751402529925140252997514025300251402530075140253012514025301751402530225140253027514025303251402530375140253042514025304751402530525140253057514025306251402530675140253072514025307751402530825140253087514025309251402530975140253102514025310751402531125140253117514025312251402531275140253132514025313751402531425140253147514025315251402531575140253162514025316751402531725140253177514025318251402531875140253192514025319751402532025140253207514025322251402532275140253232514025323751402533525140253357514025336251402505275139750532513975))
 (.node 1 (.leaf 537513975054251397505475139750552513975055751397505625139750567513975057251397505775139750582513975058751397505925139750597513975060251397506075139750612513975061751397506225139750627513975063251397506375139750642513975064751397506525139750657513975066251397506675139750672513975067751397506825139750687513975069251397506975139750702513975070751397507125139750717513975072251397507275139750732513975073751397507425139750747513975075251397507575139750762513975076751397507725139750777513975078251397507875139750792513975079751397508025139750807513975081251397508175139750822513975082751397508325139750837513975084251397508475139750852513975)
 (.leaf 857513975086251397508675139750872513975087751397508825139750887513975089251397508975139750902513975090751397509125139750917513975092251397509275139750932513975093751397509425139750947513975095251397509575139750962513975096751397509725139750977513975098251397509875139750992513975099751397510025139751007513975101251397510175139751022513975102751397510325139751037513975104251397510475139751052513975105751397510625139751067513975107251397510775139751082513975108751397510925139751097513975110251397511075139751112513975111751397511225139751127513975113251397511575139751162513975116751397511725139751217513975122251397512275139751232513975))))
 (.node 4 (.node 2 (.node 1 (.leaf 1237513975124251397512475139751252513975125751397517725139751782513975178751397518025139751807513975181251397518175139751822513975182751397518325139751837513975184251397518475139751852513975185751397518625139751867513975187251397518775139751882513975188751397518925139751897513975190251397519075139751912513975191751397519225139751927513975193251397519375139751942513975194751397519525139751957513975196251397519675139751972513975197751397519825139751987513975199251397519975139752002513975200751397520125139752017513975202251397520275139752032513975203751397520425139752047513975205251397520575139752062513975206751397520725139752077513975)
 (.leaf 2082513975208751397520925139752097513975210251397521075139752112513975211751397521225139752127513975213251397521375139752142513975214751397521525139752157513975216251397521675139752172513975217751397521825139752187513975219251397521975139752202513975220751397522125139752217513975222251397522275139752232513975223751397522425139752247513975225251397522575139752262513975226751397522725139752277513975228251397522875139752292513975229751397523025139752307513975231251397523175139752322513975232751397523325139752337513975234251397523475139752352513975235751397523625139752367513975237251397523775139752382513975238751397523925139752397513975))
 (.node 1 (.leaf 2402513975240751397524125139752417513975242251397524275139752432513975243751397524425139752447513975245251397524575139752462513975246751397524725139752477513975248251397524875139752492513975249751397525025139752507513975251251397525175139752522513975252751397525325139752537513975254251397525475139752552513975255751397525625139752567513975257251397525775139752582513975258751397525925139752597513975260251397526075139752612513975261751397526225139752627513975263251397526375139752642513975264751397526525139752657513975266251397526675139752672513975267751397526825139752687513975269251397526975139752702513975270751397527125139752717513975)
 (.leaf 2722513975272751397527325139752737513975274251397527475139752752513975275751397527625139752767513975277251397527775139752782513975278751397527925139752797513975280251397528075139752812513975281751397528225139752827513975283251397528375139752842513975284751397528525139752857513975286251397528675139752872513975287751397528825139752887513975289251397528975139752902513975290751397529125139752917513975292251397529275139752932513975293751397529425139752947513975295251397529575139752962513975296751397529725139752977513975298251397529875139752992513975299751397530025139753007513975301251397530175139753022513975302751397530325139753037513975)))
 (.node 2 (.node 1 (.leaf 3042513975304751397530525139753057513975306251397530675139753072513975307751397530825139753087513975309251397530975139753102513975310751397531125139753117513975312251397531275139753132513975313751397531425139753147513975315251397531575139753162513975316751397531725139753177513975318251397531875139753192513975319751397532025139753222513975322751397532325139753237513975324251397533475139753352513975031751392503225139250532513925053751392505425139250547513925055251392505575139250562513925056751392505725139250577513925058251392505875139250592513925059751392506025139250607513925061251392506175139250622513925062751392506325139250637513925)
 (.leaf 642513925064751392506525139250657513925066251392506675139250672513925067751392506825139250687513925069251392506975139250702513925070751392507125139250717513925072251392507275139250732513925073751392507425139250747513925075251392507575139250762513925076751392507725139250777513925078251392507875139250792513925079751392508025139250807513925081251392508175139250822513925082751392508325139250837513925084251392508475139250852513925085751392508625139250867513925087251392508775139250882513925088751392508925139250897513925090251392509075139250912513925091751392509225139250927513925093251392509375139250942513925094751392509525139250957513925))
 (.node 1 (.leaf 962513925096751392509725139250977513925098251392509875139250992513925099751392510025139251007513925101251392510175139251022513925102751392510325139251037513925104251392510475139251052513925105751392510625139251067513925107251392510775139251082513925108751392510925139251097513925110251392511075139251112513925111751392511225139251127513925113251392511375139251142513925114751392511525139251157513925116251392511675139251172513925117751392511825139251217513925122251392512275139251232513925123751392512425139251247513925125251392512575139251262513925177251392517775139251782513925178751392517925139251797513925180251392518075139251812513925)
 (.leaf 1817513925182251392518275139251832513925183751392518425139251847513925185251392518575139251862513925186751392518725139251877513925188251392518875139251892513925189751392519025139251907513925191251392519175139251922513925192751392519325139251937513925194251392519475139251952513925195751392519625139251967513925197251392519775139251982513925198751392519925139251997513925200251392520075139252012513925201751392520225139252027513925203251392520375139252042513925204751392520525139252057513925206251392520675139252072513925207751392520825139252087513925209251392520975139252102513925210751392521125139252117513925212251392521275139252132513925))))))
 (.node 16 (.node 8 (.node 4 (.node 2 (.node 1 (.leaf 2137513925214251392521475139252152513925215751392521625139252167513925217251392521775139252182513925218751392521925139252197513925220251392522075139252212513925221751392522225139252227513925223251392522375139252242513925224751392522525139252257513925226251392522675139252272513925227751392522825139252287513925229251392522975139252302513925230751392523125139252317513925232251392523275139252332513925233751392523425139252347513925235251392523575139252362513925236751392523725139252377513925238251392523875139252392513925239751392524025139252407513925241251392524175139252422513925242751392524325139252437513925244251392524475139252452513925)
 (.leaf 2457513925246251392524675139252472513925247751392524825139252487513925249251392524975139252502513925250751392525125139252517513925252251392525275139252532513925253751392525425139252547513925255251392525575139252562513925256751392525725139252577513925258251392525875139252592513925259751392526025139252607513925261251392526175139252622513925262751392526325139252637513925264251392526475139252652513925265751392526625139252667513925267251392526775139252682513925268751392526925139252697513925270251392527075139252712513925271751392527225139252727513925273251392527375139252742513925274751392527525139252757513925276251392527675139252772513925))
 (.node 1 (.leaf 2777513925278251392527875139252792513925279751392528025139252807513925281251392528175139252822513925282751392528325139252837513925284251392528475139252852513925285751392528625139252867513925287251392528775139252882513925288751392528925139252897513925290251392529075139252912513925291751392529225139252927513925293251392529375139252942513925294751392529525139252957513925296251392529675139252972513925297751392529825139252987513925299251392529975139253002513925300751392530125139253017513925302251392530275139253032513925303751392530425139253047513925305251392530575139253062513925306751392530725139253077513925308251392530875139253092513925)
 (.leaf 3097513925310251392531075139253112513925311751392531225139253127513925313251392531375139253142513925314751392531525139253157513925316251392531675139253172513925317751392531825139253187513925319251392531975139253202513925322251392532275139253232513925323751392532425139253347513925031751387503225138750542513875054751387505525138750557513875056251387505675138750572513875057751387505825138750587513875059251387505975138750602513875060751387506125138750617513875062251387506275138750632513875063751387506425138750647513875065251387506575138750662513875066751387506725138750677513875068251387506875138750692513875069751387507025138750707513875)))
 (.node 2 (.node 1 (.leaf 712513875071751387507225138750727513875073251387507375138750742513875074751387507525138750757513875076251387507675138750772513875077751387507825138750787513875079251387507975138750802513875080751387508125138750817513875082251387508275138750832513875083751387508425138750847513875085251387508575138750862513875086751387508725138750877513875088251387508875138750892513875089751387509025138750907513875091251387509175138750922513875092751387509325138750937513875094251387509475138750952513875095751387509625138750967513875097251387509775138750982513875098751387509925138750997513875100251387510075138751012513875101751387510225138751027513875)
 (.leaf 1032513875103751387510425138751047513875105251387510575138751062513875106751387510725138751077513875108251387510875138751092513875109751387511025138751107513875111251387511175138751122513875112751387511325138751137513875114251387511475138751152513875115751387512075138751212513875121751387512225138751227513875123251387512375138751242513875124751387512525138751257513875126251387512675138751752513875175751387517625138751767513875177251387517775138751782513875178751387517925138751797513875180251387518075138751812513875181751387518225138751827513875183251387518375138751842513875184751387518525138751857513875186251387518675138751872513875))
 (.node 1 (.leaf 1877513875188251387518875138751892513875189751387519025138751907513875191251387519175138751922513875192751387519325138751937513875194251387519475138751952513875195751387519625138751967513875197251387519775138751982513875198751387519925138751997513875200251387520075138752012513875201751387520225138752027513875203251387520375138752042513875204751387520525138752057513875206251387520675138752072513875207751387520825138752087513875209251387520975138752102513875210751387521125138752117513875212251387521275138752132513875213751387521425138752147513875215251387521575138752162513875216751387521725138752177513875218251387521875138752192513875)
 (.leaf 2197513875220251387522075138752212513875221751387522225138752227513875223251387522375138752242513875224751387522525138752257513875226251387522675138752272513875227751387522825138752287513875229251387522975138752302513875230751387523125138752317513875232251387523275138752332513875233751387523425138752347513875235251387523575138752362513875236751387523725138752377513875238251387523875138752392513875239751387524025138752407513875241251387524175138752422513875242751387524325138752437513875244251387524475138752452513875245751387524625138752467513875247251387524775138752482513875248751387524925138752497513875250251387525075138752512513875))))
 (.node 4 (.node 2 (.node 1 (.leaf 2517513875252251387525275138752532513875253751387525425138752547513875255251387525575138752562513875256751387525725138752577513875258251387525875138752592513875259751387526025138752607513875261251387526175138752622513875262751387526325138752637513875264251387526475138752652513875265751387526625138752667513875267251387526775138752682513875268751387526925138752697513875270251387527075138752712513875271751387527225138752727513875273251387527375138752742513875274751387527525138752757513875276251387527675138752772513875277751387527825138752787513875279251387527975138752802513875280751387528125138752817513875282251387528275138752832513875)
 (.leaf 2837513875284251387528475138752852513875285751387528625138752867513875287251387528775138752882513875288751387528925138752897513875290251387529075138752912513875291751387529225138752927513875293251387529375138752942513875294751387529525138752957513875296251387529675138752972513875297751387529825138752987513875299251387529975138753002513875300751387530125138753017513875302251387530275138753032513875303751387530425138753047513875305251387530575138753062513875306751387530725138753077513875308251387530875138753092513875309751387531025138753107513875311251387531175138753122513875312751387531325138753137513875314251387531475138753152513875))
 (.node 1 (.leaf 3157513875316251387531675138753172513875317751387531825138753187513875319251387531975138753202513875321751387532225138753227513875055251382505575138250562513825056751382505725138250577513825058251382505875138250592513825059751382506025138250607513825061251382506175138250622513825062751382506325138250637513825064251382506475138250652513825065751382506625138250667513825067251382506775138250682513825068751382506925138250697513825070251382507075138250712513825071751382507225138250727513825073251382507375138250742513825074751382507525138250757513825076251382507675138250772513825077751382507825138250787513825079251382507975138250802513825)
 (.leaf 807513825081251382508175138250822513825082751382508325138250837513825084251382508475138250852513825085751382508625138250867513825087251382508775138250882513825088751382508925138250897513825090251382509075138250912513825091751382509225138250927513825093251382509375138250942513825094751382509525138250957513825096251382509675138250972513825097751382509825138250987513825099251382509975138251002513825100751382510125138251017513825102251382510275138251032513825103751382510425138251047513825105251382510575138251062513825106751382510725138251077513825108251382510875138251092513825109751382511025138251107513825111251382511175138251122513825)))
 (.node 2 (.node 1 (.leaf 1127513825113251382511375138251142513825114751382511525138251157513825120751382512125138251217513825122251382512275138251232513825123751382512425138251247513825125251382512575138251262513825126751382512725138251752513825175751382517625138251767513825177251382517775138251782513825178751382517925138251797513825180251382518075138251812513825181751382518225138251827513825183251382518375138251842513825184751382518525138251857513825186251382518675138251872513825187751382518825138251887513825189251382518975138251902513825190751382519125138251917513825192251382519275138251932513825193751382519425138251947513825195251382519575138251962513825)
 (.leaf 1967513825197251382519775138251982513825198751382519925138251997513825200251382520075138252012513825201751382520225138252027513825203251382520375138252042513825204751382520525138252057513825206251382520675138252072513825207751382520825138252087513825209251382520975138252102513825210751382521125138252117513825212251382521275138252132513825213751382521425138252147513825215251382521575138252162513825216751382521725138252177513825218251382521875138252192513825219751382522025138252207513825221251382522175138252222513825222751382522325138252237513825224251382522475138252252513825225751382522625138252267513825227251382522775138252282513825))
 (.node 1 (.leaf 2287513825229251382522975138252302513825230751382523125138252317513825232251382523275138252332513825233751382523425138252347513825235251382523575138252362513825236751382523725138252377513825238251382523875138252392513825239751382524025138252407513825241251382524175138252422513825242751382524325138252437513825244251382524475138252452513825245751382524625138252467513825247251382524775138252482513825248751382524925138252497513825250251382525075138252512513825251751382525225138252527513825253251382525375138252542513825254751382525525138252557513825256251382525675138252572513825257751382525825138252587513825259251382525975138252602513825)
 (.leaf 2607513825261251382526175138252622513825262751382526325138252637513825264251382526475138252652513825265751382526625138252667513825267251382526775138252682513825268751382526925138252697513825270251382527075138252712513825271751382527225138252727513825273251382527375138252742513825274751382527525138252757513825276251382527675138252772513825277751382527825138252787513825279251382527975138252802513825280751382528125138252817513825282251382528275138252832513825283751382528425138252847513825285251382528575138252862513825286751382528725138252877513825288251382528875138252892513825289751382529025138252907513825291251382529175138252922513825)))))
 (.node 8 (.node 4 (.node 2 (.node 1 (.leaf 2927513825293251382529375138252942513825294751382529525138252957513825296251382529675138252972513825297751382529825138252987513825299251382529975138253002513825300751382530125138253017513825302251382530275138253032513825303751382530425138253047513825305251382530575138253062513825306751382530725138253077513825308251382530875138253092513825309751382531025138253107513825311251382531175138253122513825312751382531325138253137513825314251382531475138253152513825315751382531625138253167513825317251382531775138253182513825318751382531925138253197513825320251382532225138253227513825333251382505525137750557513775056251377505675137750572513775)
 (.leaf 577513775058251377505875137750592513775059751377506025137750607513775061251377506175137750622513775062751377506325137750637513775064251377506475137750652513775065751377506625137750667513775067251377506775137750682513775068751377506925137750697513775070251377507075137750712513775071751377507225137750727513775073251377507375137750742513775074751377507525137750757513775076251377507675137750772513775077751377507825137750787513775079251377507975137750802513775080751377508125137750817513775082251377508275137750832513775083751377508425137750847513775085251377508575137750862513775086751377508725137750877513775088251377508875137750892513775))
 (.node 1 (.leaf 897513775090251377509075137750912513775091751377509225137750927513775093251377509375137750942513775094751377509525137750957513775096251377509675137750972513775097751377509825137750987513775099251377509975137751002513775100751377510125137751017513775102251377510275137751032513775103751377510425137751047513775105251377510575137751062513775106751377510725137751077513775108251377510875137751092513775109751377511025137751107513775111251377511175137751122513775112751377511325137751137513775114251377511475137751152513775118251377511875137751207513775121251377512175137751222513775122751377512325137751237513775124251377512475137751252513775)
 (.leaf 1257513775126251377512675137751272513775175751377517625137751767513775177251377517775137751782513775178751377517925137751797513775180251377518075137751812513775181751377518225137751827513775183251377518375137751842513775184751377518525137751857513775186251377518675137751872513775187751377518825137751887513775189251377518975137751902513775190751377519125137751917513775192251377519275137751932513775193751377519425137751947513775195251377519575137751962513775196751377519725137751977513775198251377519875137751992513775199751377520025137752007513775201251377520175137752022513775202751377520325137752037513775204251377520475137752052513775)))
 (.node 2 (.node 1 (.leaf 2057513775206251377520675137752072513775207751377520825137752087513775209251377520975137752102513775210751377521125137752117513775212251377521275137752132513775213751377521425137752147513775215251377521575137752162513775216751377521725137752177513775218251377521875137752192513775219751377522025137752207513775221251377522175137752222513775222751377522325137752237513775224251377522475137752252513775225751377522625137752267513775227251377522775137752282513775228751377522925137752297513775230251377523075137752312513775231751377523225137752327513775233251377523375137752342513775234751377523525137752357513775236251377523675137752372513775)
 (.leaf 2377513775238251377523875137752392513775239751377524025137752407513775241251377524175137752422513775242751377524325137752437513775244251377524475137752452513775245751377524625137752467513775247251377524775137752482513775248751377524925137752497513775250251377525075137752512513775251751377525225137752527513775253251377525375137752542513775254751377525525137752557513775256251377525675137752572513775257751377525825137752587513775259251377525975137752602513775260751377526125137752617513775262251377526275137752632513775263751377526425137752647513775265251377526575137752662513775266751377526725137752677513775268251377526875137752692513775))
 (.node 1 (.leaf 2697513775270251377527075137752712513775271751377527225137752727513775273251377527375137752742513775274751377527525137752757513775276251377527675137752772513775277751377527825137752787513775279251377527975137752802513775280751377528125137752817513775282251377528275137752832513775283751377528425137752847513775285251377528575137752862513775286751377528725137752877513775288251377528875137752892513775289751377529025137752907513775291251377529175137752922513775292751377529325137752937513775294251377529475137752952513775295751377529625137752967513775297251377529775137752982513775298751377529925137752997513775300251377530075137753012513775)
 (.leaf 3017513775302251377530275137753032513775303751377530425137753047513775305251377530575137753062513775306751377530725137753077513775308251377530875137753092513775309751377531025137753107513775311251377531175137753122513775312751377531325137753137513775314251377531475137753152513775315751377531625137753167513775317251377531775137753182513775318751377531925137753222513775322751377505575137250562513725056751372505725137250577513725058251372505875137250592513725059751372506025137250607513725061251372506175137250622513725062751372506325137250637513725064251372506475137250652513725065751372506625137250667513725067251372506775137250682513725))))
 (.node 4 (.node 2 (.node 1 (.leaf 687513725069251372506975137250702513725070751372507125137250717513725072251372507275137250732513725073751372507425137250747513725075251372507575137250762513725076751372507725137250777513725078251372507875137250792513725079751372508025137250807513725081251372508175137250822513725082751372508325137250837513725084251372508475137250852513725085751372508625137250867513725087251372508775137250882513725088751372508925137250897513725090251372509075137250912513725091751372509225137250927513725093251372509375137250942513725094751372509525137250957513725096251372509675137250972513725097751372509825137250987513725099251372509975137251002513725)
 (.leaf 1007513725101251372510175137251022513725102751372510325137251037513725104251372510475137251052513725105751372510625137251067513725107251372510775137251082513725108751372510925137251097513725110251372511075137251112513725111751372511225137251127513725113251372511375137251142513725114751372511525137251177513725118251372511925137251197513725123751372512425137251247513725125251372512575137251262513725126751372512725137251767513725177751372517825137251787513725179251372517975137251802513725180751372518125137251817513725182251372518275137251832513725183751372518425137251847513725185251372518575137251862513725186751372518725137251877513725))
 (.node 1 (.leaf 1882513725188751372518925137251897513725190251372519075137251912513725191751372519225137251927513725193251372519375137251942513725194751372519525137251957513725196251372519675137251972513725197751372519825137251987513725199251372519975137252002513725200751372520125137252017513725202251372520275137252032513725203751372520425137252047513725205251372520575137252062513725206751372520725137252077513725208251372520875137252092513725209751372521025137252107513725211251372521175137252122513725212751372521325137252137513725214251372521475137252152513725215751372521625137252167513725217251372521775137252182513725218751372521925137252197513725)
 (.leaf 2202513725220751372522125137252217513725222251372522275137252232513725223751372522425137252247513725225251372522575137252262513725226751372522725137252277513725228251372522875137252292513725229751372523025137252307513725231251372523175137252322513725232751372523325137252337513725234251372523475137252352513725235751372523625137252367513725237251372523775137252382513725238751372523925137252397513725240251372524075137252412513725241751372524225137252427513725243251372524375137252442513725244751372524525137252457513725246251372524675137252472513725247751372524825137252487513725249251372524975137252502513725250751372525125137252517513725)))
 (.node 2 (.node 1 (.leaf 2522513725252751372525325137252537513725254251372525475137252552513725255751372525625137252567513725257251372525775137252582513725258751372525925137252597513725260251372526075137252612513725261751372526225137252627513725263251372526375137252642513725264751372526525137252657513725266251372526675137252672513725267751372526825137252687513725269251372526975137252702513725270751372527125137252717513725272251372527275137252732513725273751372527425137252747513725275251372527575137252762513725276751372527725137252777513725278251372527875137252792513725279751372528025137252807513725281251372528175137252822513725282751372528325137252837513725)
 (.leaf 2842513725284751372528525137252857513725286251372528675137252872513725287751372528825137252887513725289251372528975137252902513725290751372529125137252917513725292251372529275137252932513725293751372529425137252947513725295251372529575137252962513725296751372529725137252977513725298251372529875137252992513725299751372530025137253007513725301251372530175137253022513725302751372530325137253037513725304251372530475137253052513725305751372530625137253067513725307251372530775137253082513725308751372530925137253097513725310251372531075137253112513725311751372531225137253127513725313251372531375137253142513725314751372531525137253157513725))
 (.node 1 (.leaf 3162513725316751372531725137253177513725318251372531875137253192513725322251372532275137253322513725055751367505625136750567513675057251367505775136750582513675058751367505925136750597513675060251367506075136750612513675061751367506225136750627513675063251367506375136750642513675064751367506525136750657513675066251367506675136750672513675067751367506825136750687513675069251367506975136750702513675070751367507125136750717513675072251367507275136750732513675073751367507425136750747513675075251367507575136750762513675076751367507725136750777513675078251367507875136750792513675079751367508025136750807513675081251367508175136750822513675)
 (.leaf 827513675083251367508375136750842513675084751367508525136750857513675086251367508675136750872513675087751367508825136750887513675089251367508975136750902513675090751367509125136750917513675092251367509275136750932513675093751367509425136750947513675095251367509575136750962513675096751367509725136750977513675098251367509875136750992513675099751367510025136751007513675101251367510175136751022513675102751367510325136751037513675104251367510475136751052513675105751367510625136751067513675107251367510775136751082513675108751367510925136751097513675110251367511075136751112513675111751367511225136751127513675113251367511375136751142513675)))))))
 (.node 32 (.node 16 (.node 8 (.node 4 (.node 2 (.node 1 (.leaf 1147513675115251367511575136751162513675116751367511875136751192513675119751367512375136751242513675124751367512575136751262513675126751367512725136751777513675178251367517875136751792513675179751367518025136751807513675181251367518175136751822513675182751367518325136751837513675184251367518475136751852513675185751367518625136751867513675187251367518775136751882513675188751367518925136751897513675190251367519075136751912513675191751367519225136751927513675193251367519375136751942513675194751367519525136751957513675196251367519675136751972513675197751367519825136751987513675199251367519975136752002513675200751367520125136752017513675)
 (.leaf 2022513675202751367520325136752037513675204251367520475136752052513675205751367520625136752067513675207251367520775136752082513675208751367520925136752097513675210251367521075136752112513675211751367521225136752127513675213251367521375136752142513675214751367521525136752157513675216251367521675136752172513675217751367521825136752187513675219251367521975136752202513675220751367522125136752217513675222251367522275136752232513675223751367522425136752247513675225251367522575136752262513675226751367522725136752277513675228251367522875136752292513675229751367523025136752332513675233751367523425136752347513675235251367523575136752362513675))
 (.node 1 (.leaf 2367513675237251367523775136752382513675238751367523925136752397513675240251367524075136752412513675241751367524225136752427513675243251367524375136752442513675244751367524525136752457513675246251367524675136752472513675247751367524825136752487513675249251367524975136752502513675250751367525125136752517513675252251367525275136752532513675253751367525425136752547513675255251367525575136752562513675256751367525725136752577513675258251367525875136752592513675259751367526025136752607513675261251367526175136752622513675262751367526325136752637513675264251367526475136752652513675265751367526625136752667513675267251367526775136752682513675)
 (.leaf 2687513675269251367526975136752702513675270751367527125136752717513675272251367527275136752732513675273751367527425136752747513675275251367527575136752762513675276751367527725136752777513675278251367527875136752792513675279751367528025136752807513675281251367528175136752822513675282751367528325136752837513675284251367528475136752852513675285751367528625136752867513675287251367528775136752882513675288751367528925136752897513675290251367529075136752912513675291751367529225136752927513675293251367529375136752942513675294751367529525136752957513675296251367529675136752972513675297751367529825136752987513675299251367529975136753002513675)))
 (.node 2 (.node 1 (.leaf 3007513675301251367530175136753022513675302751367530325136753037513675304251367530475136753052513675305751367530625136753067513675307251367530775136753082513675308751367530925136753097513675310251367531075136753112513675311751367531225136753127513675313251367531375136753142513675314751367531525136753157513675316251367531675136753172513675317751367531825136753217513675322251367532275136753232513675331751367505575136250562513625056751362505725136250577513625058251362505875136250592513625059751362506025136250607513625061251362506175136250622513625062751362506325136250637513625064251362506475136250652513625065751362506625136250667513625)
 (.leaf 672513625067751362506825136250687513625069251362506975136250702513625070751362507125136250717513625072251362507275136250732513625073751362507425136250747513625075251362507575136250762513625076751362507725136250777513625078251362507875136250792513625079751362508025136250807513625081251362508175136250822513625082751362508325136250837513625084251362508475136250852513625085751362508625136250867513625087251362508775136250882513625088751362508925136250897513625090251362509075136250912513625091751362509225136250927513625093251362509375136250942513625094751362509525136250957513625096251362509675136250972513625097751362509825136250987513625))
 (.node 1 (.leaf 992513625099751362510025136251007513625101251362510175136251022513625102751362510325136251037513625104251362510475136251052513625105751362510625136251067513625107251362510775136251082513625108751362510925136251097513625110251362511075136251112513625111751362511225136251127513625113251362511375136251142513625114751362511525136251157513625116251362511675136251172513625117751362511825136251187513625119251362511975136251202513625126751362517825136251787513625179251362517975136251802513625180751362518125136251817513625182251362518275136251832513625183751362518425136251847513625185251362518575136251862513625186751362518725136251877513625)
 (.leaf 1882513625188751362518925136251897513625190251362519075136251912513625191751362519225136251927513625193251362519375136251942513625194751362519525136251957513625196251362519675136251972513625197751362519825136251987513625199251362519975136252002513625200751362520125136252017513625202251362520275136252032513625203751362520425136252047513625205251362520575136252062513625206751362520725136252077513625208251362520875136252092513625209751362521025136252107513625211751362521225136252127513625213251362521375136252142513625214751362521525136252157513625217751362521825136252187513625219251362521975136252202513625220751362522125136252217513625))))
 (.node 4 (.node 2 (.node 1 (.leaf 2222513625222751362522325136252237513625224251362522475136252252513625225751362522625136252267513625227251362522775136252282513625228751362523325136252337513625234251362523475136252352513625235751362523625136252367513625237251362523775136252382513625238751362523925136252397513625240251362524075136252412513625241751362524225136252427513625243251362524375136252442513625244751362524525136252457513625246251362524675136252472513625247751362524825136252487513625249251362524975136252502513625250751362525125136252517513625252251362525275136252532513625253751362525425136252547513625255251362525575136252562513625256751362525725136252577513625)
 (.leaf 2582513625258751362525925136252597513625260251362526075136252612513625261751362526225136252627513625263251362526375136252642513625264751362526525136252657513625266251362526675136252672513625267751362526825136252687513625269251362526975136252702513625270751362527125136252717513625272251362527275136252732513625273751362527425136252747513625275251362527575136252762513625276751362527725136252777513625278251362527875136252792513625279751362528025136252807513625281251362528175136252822513625282751362528325136252837513625284251362528475136252852513625285751362528625136252867513625287251362528775136252882513625288751362528925136252897513625))
 (.node 1 (.leaf 2902513625290751362529125136252917513625292251362529275136252932513625293751362529425136252947513625295251362529575136252962513625296751362529725136252977513625298251362529875136252992513625299751362530025136253007513625301251362530175136253022513625302751362530325136253037513625304251362530475136253052513625305751362530625136253067513625307251362530775136253082513625308751362530925136253097513625310251362531075136253112513625311751362531225136253127513625313251362531375136253142513625314751362531525136253157513625316251362531675136253172513625317751362531825136253217513625322251362532325136253302513625056251357505675135750572513575)
 (.leaf 577513575058251357505875135750592513575059751357506025135750607513575061251357506175135750622513575062751357506325135750637513575064251357506475135750652513575065751357506625135750667513575067251357506775135750682513575068751357506925135750697513575070251357507075135750712513575071751357507225135750727513575073251357507375135750742513575074751357507525135750757513575076251357507675135750772513575077751357507825135750787513575079251357507975135750802513575080751357508125135750817513575082251357508275135750832513575083751357508425135750847513575085251357508575135750862513575086751357508725135750877513575088251357508875135750892513575)))
 (.node 2 (.node 1 (.leaf 897513575090251357509075135750912513575091751357509225135750927513575093251357509375135750942513575094751357509525135750957513575096251357509675135750972513575097751357509825135750987513575099251357509975135751002513575100751357510125135751017513575102251357510275135751032513575103751357510425135751047513575105251357510575135751062513575106751357510725135751077513575108251357510875135751092513575109751357511025135751107513575111251357511175135751122513575112751357511325135751137513575114251357511475135751152513575115751357511625135751167513575117251357511775135751182513575118751357511925135751197513575120251357517475135751787513575)
 (.leaf 1792513575179751357518025135751807513575181251357518175135751822513575182751357518325135751837513575184251357518475135751852513575185751357518625135751867513575187251357518775135751882513575188751357518925135751897513575190251357519075135751912513575191751357519225135751927513575193251357519375135751942513575194751357519525135751957513575196251357519675135751972513575197751357519825135751987513575199251357519975135752002513575200751357520125135752017513575202251357520275135752032513575203751357520425135752047513575205251357520575135752062513575206751357520725135752077513575208251357520875135752092513575209751357521025135752127513575))
 (.node 1 (.leaf 2132513575213751357521425135752147513575217751357521825135752187513575219251357521975135752202513575220751357522125135752217513575222251357522275135752232513575223751357522425135752247513575225251357522575135752262513575226751357522725135752277513575228251357523225135752327513575233251357523375135752342513575234751357523525135752357513575236251357523675135752372513575237751357523825135752387513575239251357523975135752402513575240751357524125135752417513575242251357524275135752432513575243751357524425135752447513575245251357524575135752462513575246751357524725135752477513575248251357524875135752492513575249751357525025135752507513575)
 (.leaf 2512513575251751357525225135752527513575253251357525375135752542513575254751357525525135752557513575256251357525675135752572513575257751357525825135752587513575259251357525975135752602513575260751357526125135752617513575262251357526275135752632513575263751357526425135752647513575265251357526575135752662513575266751357526725135752677513575268251357526875135752692513575269751357527025135752707513575271251357527175135752722513575272751357527325135752737513575274251357527475135752752513575275751357527625135752767513575277251357527775135752782513575278751357527925135752797513575280251357528075135752812513575281751357528225135752827513575)))))
 (.node 8 (.node 4 (.node 2 (.node 1 (.leaf 2832513575283751357528425135752847513575285251357528575135752862513575286751357528725135752877513575288251357528875135752892513575289751357529025135752907513575291251357529175135752922513575292751357529325135752937513575294251357529475135752952513575295751357529625135752967513575297251357529775135752982513575298751357529925135752997513575300251357530075135753012513575301751357530225135753027513575303251357530375135753042513575304751357530525135753057513575306251357530675135753072513575307751357530825135753087513575309251357530975135753102513575310751357531125135753117513575312251357531275135753132513575313751357531425135753147513575)
 (.leaf 3152513575315751357531625135753167513575317251357531775135753222513575329751357533025135750557513525056251352505675135250572513525057751352505825135250587513525059251352505975135250602513525060751352506125135250617513525062251352506275135250632513525063751352506425135250647513525065251352506575135250662513525066751352506725135250677513525068251352506875135250692513525069751352507025135250707513525071251352507175135250722513525072751352507325135250737513525074251352507475135250752513525075751352507625135250767513525077251352507775135250782513525078751352507925135250797513525080251352508075135250812513525081751352508225135250827513525))
 (.node 1 (.leaf 832513525083751352508425135250847513525085251352508575135250862513525086751352508725135250877513525088251352508875135250892513525089751352509025135250907513525091251352509175135250922513525092751352509325135250937513525094251352509475135250952513525095751352509625135250967513525097251352509775135250982513525098751352509925135250997513525100251352510075135251012513525101751352510225135251027513525103251352510375135251042513525104751352510525135251057513525106251352510675135251072513525107751352510825135251087513525109251352510975135251102513525110751352511125135251117513525112251352511275135251132513525113751352511425135251147513525)
 (.leaf 1152513525115751352511625135251167513525117251352511775135251182513525118751352511925135251637513525164251352517875135251792513525179751352518025135251807513525181251352518175135251822513525182751352518325135251837513525184251352518475135251852513525185751352518625135251867513525187251352518775135251882513525188751352518925135251897513525190251352519075135251912513525191751352519225135251927513525193751352519425135251947513525195251352519575135251962513525196751352519725135251977513525198251352519875135251992513525199751352520025135252007513525201251352520175135252022513525202751352520325135252037513525204251352520475135252052513525)))
 (.node 2 (.node 1 (.leaf 2057513525206251352520675135252072513525207751352520825135252087513525209251352520975135252122513525212751352521325135252137513525214251352521475135252152513525215751352521625135252167513525217251352521775135252182513525218751352521925135252197513525220251352522075135252212513525221751352522225135252227513525223251352522375135252242513525224751352522525135252257513525226251352522675135252272513525231751352523225135252327513525233251352523375135252342513525234751352523525135252357513525236251352523675135252372513525237751352523825135252387513525239251352523975135252402513525240751352524125135252417513525242251352524275135252432513525)
 (.leaf 2437513525244251352524475135252452513525245751352524625135252467513525247251352524775135252482513525248751352524925135252497513525250251352525075135252512513525251751352525225135252527513525253251352525375135252542513525254751352525525135252557513525256251352525675135252572513525257751352525825135252587513525259251352525975135252602513525260751352526125135252617513525262251352526275135252632513525263751352526425135252647513525265251352526575135252662513525266751352526725135252677513525268251352526875135252692513525269751352527025135252707513525271251352527175135252722513525272751352527325135252737513525274251352527475135252752513525))
 (.node 1 (.leaf 2757513525276251352527675135252772513525277751352527825135252787513525279251352527975135252802513525280751352528125135252817513525282251352528275135252832513525283751352528425135252847513525285251352528575135252862513525286751352528725135252877513525288251352528875135252892513525289751352529025135252907513525291251352529175135252922513525292751352529325135252937513525294251352529475135252952513525295751352529625135252967513525297251352529775135252982513525298751352529925135252997513525300251352530075135253012513525301751352530225135253027513525303251352530375135253042513525304751352530525135253057513525306251352530675135253072513525)
 (.leaf 3077513525308251352530875135253092513525309751352531025135253107513525311251352531175135253122513525312751352531325135253137513525314251352531475135253152513525315751352531625135253167513525317251352532175135253222513525327751352532825135253287513525055751347505625134750567513475057251347505775134750582513475058751347505925134750597513475060251347506075134750612513475061751347506225134750627513475063251347506375134750642513475064751347506525134750657513475066251347506675134750672513475067751347506825134750687513475069251347506975134750702513475070751347507125134750717513475072251347507275134750732513475073751347507425134750747513475))))
 (.node 4 (.node 2 (.node 1 (.leaf 752513475075751347507625134750767513475077251347507775134750782513475078751347507925134750797513475080251347508075134750812513475081751347508225134750827513475083251347508375134750842513475084751347508525134750857513475086251347508675134750872513475087751347508825134750887513475089251347508975134750902513475090751347509125134750917513475092251347509275134750932513475093751347509425134750947513475095251347509575134750962513475096751347509725134750977513475098251347509875134750992513475099751347510025134751007513475101251347510175134751022513475102751347510325134751037513475104251347510475134751052513475105751347510625134751067513475)
 (.leaf 1072513475107751347510825134751087513475109251347510975134751102513475110751347511125134751117513475112251347511275134751132513475113751347511425134751147513475115251347511575134751162513475116751347511725134751177513475118251347516375134751642513475178751347517925134751797513475180251347518075134751812513475181751347518225134751827513475183251347518375134751842513475184751347518525134751857513475186251347518675134751872513475187751347518825134751887513475189251347518975134751902513475190751347519125134751917513475192251347519275134751937513475194251347519475134751952513475195751347519625134751967513475197251347519775134751982513475))
 (.node 1 (.leaf 1987513475199251347519975134752002513475200751347520125134752017513475202251347520275134752032513475203751347520425134752047513475205251347520575134752062513475206751347520725134752077513475208251347520875134752092513475209751347521325134752137513475214251347521475134752152513475215751347521725134752177513475218251347521875134752192513475219751347522025134752207513475221251347522175134752222513475222751347522325134752237513475224251347522475134752252513475225751347522625134752267513475230251347523075134752312513475231751347523225134752327513475233251347523375134752342513475234751347523525134752357513475236251347523675134752372513475)
 (.leaf 2377513475238251347523875134752392513475239751347524025134752407513475241251347524175134752422513475242751347524325134752437513475244251347524475134752452513475245751347524625134752467513475247251347524775134752482513475248751347524925134752497513475250251347525075134752512513475251751347525225134752527513475253251347525375134752542513475254751347525525134752557513475256251347525675134752572513475257751347525825134752587513475259251347525975134752602513475260751347526125134752617513475262251347526275134752632513475263751347526425134752647513475265251347526575134752662513475266751347526725134752677513475268251347526875134752692513475)))
 (.node 2 (.node 1 (.leaf 2697513475270251347527075134752712513475271751347527225134752727513475273251347527375134752742513475274751347527525134752757513475276251347527675134752772513475277751347527825134752787513475279251347527975134752802513475280751347528125134752817513475282251347528275134752832513475283751347528425134752847513475285251347528575134752862513475286751347528725134752877513475288251347528875134752892513475289751347529025134752907513475291251347529175134752922513475292751347529325134752937513475294251347529475134752952513475295751347529625134752967513475297251347529775134752982513475298751347529925134752997513475300251347530075134753012513475)
 (.leaf 3017513475302251347530275134753032513475303751347530425134753047513475305251347530575134753062513475306751347530725134753077513475308251347530875134753092513475309751347531025134753107513475311251347531175134753122513475312751347531325134753137513475314251347531475134753152513475315751347531625134753167513475321751347532225134753227513475327251347532775134750557513425056251342505675134250572513425057751342505825134250587513425059251342505975134250602513425060751342506125134250617513425062251342506275134250632513425063751342506425134250647513425065251342506575134250662513425066751342506725134250677513425068251342506875134250692513425))
 (.node 1 (.leaf 697513425070251342507075134250712513425071751342507225134250727513425073251342507375134250742513425074751342507525134250757513425076251342507675134250772513425077751342507825134250787513425079251342507975134250802513425080751342508125134250817513425082251342508275134250832513425083751342508425134250847513425085251342508575134250862513425086751342508725134250877513425088251342508875134250892513425089751342509025134250907513425091251342509175134250922513425092751342509325134250937513425094251342509475134250952513425095751342509625134250967513425097251342509775134250982513425098751342509925134250997513425100251342510075134251012513425)
 (.leaf 1017513425102251342510275134251032513425103751342510425134251047513425105251342510575134251062513425106751342510725134251077513425108251342510875134251092513425109751342511025134251107513425111251342511175134251122513425113751342511425134251147513425115251342511575134251162513425116751342511775134251197513425138751342513925134251787513425179251342517975134251802513425180751342518125134251817513425182251342518275134251832513425183751342518425134251847513425185251342518575134251862513425186751342518725134251877513425188251342518875134251892513425189751342519025134251907513425191251342519175134251922513425192751342519475134251952513425))))))
 (.node 16 (.node 8 (.node 4 (.node 2 (.node 1 (.leaf 1957513425196251342519675134251972513425197751342519825134251987513425199251342519975134252002513425200751342520125134252017513425202251342520275134252032513425203751342520425134252047513425205251342520575134252062513425206751342520725134252077513425208251342520875134252137513425214251342521825134252187513425219251342521975134252202513425220751342522125134252217513425222251342522275134252232513425223751342522425134252247513425225251342522575134252262513425226751342522775134252302513425230751342523125134252317513425232251342523275134252332513425233751342523425134252347513425235251342523575134252362513425236751342523725134252377513425)
 (.leaf 2382513425238751342523925134252397513425240251342524075134252412513425241751342524225134252427513425243251342524375134252442513425244751342524525134252457513425246251342524675134252472513425247751342524825134252487513425249251342524975134252502513425250751342525125134252517513425252251342525275134252532513425253751342525425134252547513425255251342525575134252562513425256751342525725134252577513425258251342525875134252592513425259751342526025134252607513425261251342526175134252622513425262751342526325134252637513425264251342526475134252652513425265751342526625134252667513425267251342526775134252682513425268751342526925134252697513425))
 (.node 1 (.leaf 2702513425270751342527125134252717513425272251342527275134252732513425273751342527425134252747513425275251342527575134252762513425276751342527725134252777513425278251342527875134252792513425279751342528025134252807513425281251342528175134252822513425282751342528325134252837513425284251342528475134252852513425285751342528625134252867513425287251342528775134252882513425288751342528925134252897513425290251342529075134252912513425291751342529225134252927513425293251342529375134252942513425294751342529525134252957513425296251342529675134252972513425297751342529825134252987513425299251342529975134253002513425300751342530125134253017513425)
 (.leaf 3022513425302751342530325134253037513425304251342530475134253052513425305751342530625134253067513425307251342530775134253082513425308751342530925134253097513425310251342531075134253112513425311751342531225134253127513425313251342531375134253142513425314751342531525134253157513425316251342532175134253222513425322751342532325134253237513425324251342532525134253257513425326251342532675134250557513375056251337505675133750572513375057751337505825133750587513375059251337505975133750602513375060751337506125133750617513375062251337506275133750632513375063751337506425133750647513375065251337506575133750662513375066751337506725133750677513375)))
 (.node 2 (.node 1 (.leaf 682513375068751337506925133750697513375070251337507075133750712513375071751337507225133750727513375073251337507375133750742513375074751337507525133750757513375076251337507675133750772513375077751337507825133750787513375079251337507975133750802513375080751337508125133750817513375082251337508275133750832513375083751337508425133750847513375085251337508575133750862513375086751337508725133750877513375088251337508875133750892513375089751337509025133750907513375091251337509175133750922513375092751337509325133750937513375094251337509475133750952513375095751337509625133750967513375097251337509775133750982513375098751337509925133750997513375)
 (.leaf 1002513375100751337510125133751017513375102251337510275133751032513375103751337510425133751047513375105251337510575133751062513375106751337510725133751077513375108251337510875133751092513375109751337511025133751107513375111251337511375133751142513375114751337511525133751197513375138751337513925133751717513375172251337517275133751732513375173751337517425133751747513375176251337517875133751792513375179751337518025133751807513375181251337518175133751822513375182751337518325133751837513375184251337518475133751852513375185751337518625133751867513375187251337518775133751882513375189751337519025133751907513375191251337519175133751922513375))
 (.node 1 (.leaf 1927513375193251337519375133751952513375195751337519625133751967513375197251337519775133751982513375198751337519925133751997513375200251337520075133752012513375201751337520225133752027513375203251337520375133752042513375204751337520525133752057513375206251337520675133752072513375207751337520825133752087513375219251337521975133752202513375220751337522125133752217513375222251337522275133752232513375223751337522425133752247513375225251337522575133752262513375226751337522725133752312513375231751337523225133752327513375233251337523375133752342513375234751337523525133752357513375236251337523675133752372513375237751337523825133752387513375)
 (.leaf 2392513375239751337524025133752407513375241251337524175133752422513375242751337524325133752437513375244251337524475133752452513375245751337524625133752467513375247251337524775133752482513375248751337524925133752497513375250251337525075133752512513375251751337525225133752527513375253251337525375133752542513375254751337525525133752557513375256251337525675133752572513375257751337525825133752587513375259251337525975133752602513375260751337526125133752617513375262251337526275133752632513375263751337526425133752647513375265251337526575133752662513375266751337526725133752677513375268251337526875133752692513375269751337527025133752707513375))))
 (.node 4 (.node 2 (.node 1 (.leaf 2712513375271751337527225133752727513375273251337527375133752742513375274751337527525133752757513375276251337527675133752772513375277751337527825133752787513375279251337527975133752802513375280751337528125133752817513375282251337528275133752832513375283751337528425133752847513375285251337528575133752862513375286751337528725133752877513375288251337528875133752892513375289751337529025133752907513375291251337529175133752922513375292751337529325133752937513375294251337529475133752952513375295751337529625133752967513375297251337529775133752982513375298751337529925133752997513375300251337530075133753012513375301751337530225133753027513375)
 (.leaf 3032513375303751337530425133753047513375305251337530575133753062513375306751337530725133753077513375308251337530875133753092513375309751337531025133753107513375311251337531175133753122513375312751337531325133753137513375314251337531475133753152513375321251337532175133753222513375322751337532325133753237513375324251337532475133753252513375325751337532675133750557513325056251332505675133250572513325057751332505825133250587513325059251332505975133250602513325060751332506125133250617513325062251332506275133250632513325063751332506425133250647513325065251332506575133250662513325066751332506725133250677513325068251332506875133250692513325))
 (.node 1 (.leaf 697513325070251332507075133250712513325071751332507225133250727513325073251332507375133250742513325074751332507525133250757513325076251332507675133250772513325077751332507825133250787513325079251332507975133250802513325080751332508125133250817513325082251332508275133250832513325083751332508425133250847513325085251332508575133250862513325086751332508725133250877513325088251332508875133250892513325089751332509025133250907513325091251332509175133250922513325092751332509325133250937513325094251332509475133250952513325095751332509625133250967513325097251332509775133250982513325098751332509925133250997513325100251332510075133251012513325)
 (.leaf 1017513325102251332510275133251032513325103751332510425133251047513325105251332510575133251062513325106751332510725133251077513325108251332510875133251092513325109751332517075133251712513325171751332517225133251727513325173251332517375133251742513325174751332517525133251757513325176251332517675133251772513325177751332517825133251787513325179251332517975133251802513325180751332518125133251817513325182251332518275133251832513325183751332518425133251847513325185251332518575133251862513325186751332518975133251902513325190751332519125133251917513325192251332519275133251932513325193751332519625133251967513325197251332519775133251982513325)))
 (.node 2 (.node 1 (.leaf 1987513325199251332519975133252002513325200751332520125133252017513325202251332520275133252032513325203751332520425133252047513325205251332520575133252062513325206751332520725133252077513325208251332520875133252197513325220251332522075133252212513325221751332522225133252227513325223251332522375133252242513325224751332522525133252257513325226251332522675133252272513325231251332523175133252322513325232751332523325133252337513325234251332523475133252352513325235751332523625133252367513325237251332523775133252382513325238751332523925133252397513325240251332524075133252412513325241751332524225133252427513325243251332524375133252442513325)
 (.leaf 2447513325245251332524575133252462513325246751332524725133252477513325248251332524875133252492513325249751332525025133252507513325251251332525175133252522513325252751332525325133252537513325254251332525475133252552513325255751332525625133252567513325257251332525775133252582513325258751332525925133252597513325260251332526075133252612513325261751332526225133252627513325263251332526375133252642513325264751332526525133252657513325266251332526675133252672513325267751332526825133252687513325269251332526975133252702513325270751332527125133252717513325272251332527275133252732513325273751332527425133252747513325275251332527575133252762513325))
 (.node 1 (.leaf 2767513325277251332527775133252782513325278751332527925133252797513325280251332528075133252812513325281751332528225133252827513325283251332528375133252842513325284751332528525133252857513325286251332528675133252872513325287751332528825133252887513325289251332528975133252902513325290751332529125133252917513325292251332529275133252932513325293751332529425133252947513325295251332529575133252962513325296751332529725133252977513325298251332529875133252992513325299751332530025133253007513325301251332530175133253022513325302751332530325133253037513325304251332530475133253052513325305751332530625133253067513325307251332530775133253082513325)
 (.leaf 3087513325309251332530975133253102513325310751332531125133253117513325312251332531275133253132513325313751332531425133253147513325315251332532025133253207513325321251332532175133253222513325322751332532325133253237513325324251332532475133253252513325325751332505525132750557513275056251327505675132750572513275057751327505825132750587513275059251327505975132750602513275060751327506125132750617513275062251327506275132750632513275063751327506425132750647513275065251327506575132750662513275066751327506725132750677513275068251327506875132750692513275069751327507025132750707513275071251327507175132750722513275072751327507325132750737513275)))))
 (.node 8 (.node 4 (.node 2 (.node 1 (.leaf 742513275074751327507525132750757513275076251327507675132750772513275077751327507825132750787513275079251327507975132750802513275080751327508125132750817513275082251327508275132750832513275083751327508425132750847513275085251327508575132750862513275086751327508725132750877513275088251327508875132750892513275089751327509025132750907513275091251327509175132750922513275092751327509325132750937513275094251327509475132750952513275095751327509625132750967513275097251327509775132750982513275098751327509925132750997513275100251327510075132751012513275101751327510225132751027513275103251327510375132751042513275104751327510525132751057513275)
 (.leaf 1062513275106751327510725132751077513275108251327510875132751092513275170751327517125132751717513275172251327517275132751732513275173751327517425132751747513275175251327517575132751762513275176751327517725132751777513275178251327517875132751792513275179751327518025132751807513275181251327518175132751822513275182751327518325132751887513275189251327518975132751902513275190751327519125132751917513275192251327519275132751932513275193751327519425132751967513275197251327519775132751982513275198751327519925132751997513275200251327520075132752012513275201751327520225132752027513275203251327520375132752042513275204751327520525132752057513275))
 (.node 1 (.leaf 2062513275206751327520725132752077513275220751327522125132752217513275222251327522275132752232513275223751327522425132752247513275225251327522575132752262513275226751327522725132752277513275228251327523175132752322513275232751327523325132752337513275234251327523475132752352513275235751327523625132752367513275237251327523775132752382513275238751327523925132752397513275240251327524075132752412513275241751327524225132752427513275243251327524375132752442513275244751327524525132752457513275246251327524675132752472513275247751327524825132752487513275249251327524975132752502513275250751327525125132752517513275252251327525275132752532513275)
 (.leaf 2537513275254251327525475132752552513275255751327525625132752567513275257251327525775132752582513275258751327525925132752597513275260251327526075132752612513275261751327526225132752627513275263251327526375132752642513275264751327526525132752657513275266251327526675132752672513275267751327526825132752687513275269251327526975132752702513275270751327527125132752717513275272251327527275132752732513275273751327527425132752747513275275251327527575132752762513275276751327527725132752777513275278251327527875132752792513275279751327528025132752807513275281251327528175132752822513275282751327528325132752837513275284251327528475132752852513275)))
 (.node 2 (.node 1 (.leaf 2857513275286251327528675132752872513275287751327528825132752887513275289251327528975132752902513275290751327529125132752917513275292251327529275132752932513275293751327529425132752947513275295251327529575132752962513275296751327529725132752977513275298251327529875132752992513275299751327530025132753007513275301251327530175132753022513275302751327530325132753037513275304251327530475132753052513275305751327530625132753067513275307251327530775132753082513275308751327530925132753097513275310251327531075132753112513275311751327531225132753127513275313251327531375132753142513275319751327532025132753207513275321251327532175132753222513275)
 (.leaf 3227513275323251327532375132753242513275324751327505575132250562513225056751322505725132250577513225058251322505875132250592513225059751322506025132250607513225061251322506175132250622513225062751322506325132250637513225064251322506475132250652513225065751322506625132250667513225067251322506775132250682513225068751322506925132250697513225070251322507075132250712513225071751322507225132250727513225073251322507375132250742513225074751322507525132250757513225076251322507675132250772513225077751322507825132250787513225079251322507975132250802513225080751322508125132250817513225082251322508275132250832513225083751322508425132250847513225))
 (.node 1 (.leaf 852513225085751322508625132250867513225087251322508775132250882513225088751322508925132250897513225090251322509075132250912513225091751322509225132250927513225093251322509375132250942513225094751322509525132250957513225096251322509675132250972513225097751322509825132250987513225099251322509975132251002513225100751322510125132251017513225102251322510275132251032513225103751322510425132251047513225105251322510575132251062513225106751322510725132251077513225108251322510875132251092513225109751322517125132251717513225172251322517275132251732513225173751322517425132251747513225175251322517575132251762513225176751322517725132251777513225)
 (.leaf 1782513225178751322517925132251797513225180251322518075132251812513225181751322518225132251827513225183251322518875132251892513225189751322519025132251907513225191251322519175132251922513225192751322519325132251937513225194251322519475132251952513225198251322519875132251992513225199751322520025132252007513225201251322520175132252022513225202751322520325132252037513225204251322520475132252052513225205751322520625132252067513225207251322520775132252132513225213751322521425132252147513225215251322522175132252222513225222751322522325132252237513225224251322522475132252252513225225751322522625132252267513225227251322522775132252282513225))))
 (.node 4 (.node 2 (.node 1 (.leaf 2322513225232751322523325132252337513225234251322523475132252352513225235751322523625132252367513225237251322523775132252382513225238751322523925132252397513225240251322524075132252412513225241751322524225132252427513225243251322524375132252442513225244751322524525132252457513225246251322524675132252472513225247751322524825132252487513225249251322524975132252502513225250751322525125132252517513225252251322525275132252532513225253751322525425132252547513225255251322525575132252562513225256751322525725132252577513225258251322525875132252592513225259751322526025132252607513225261251322526175132252622513225262751322526325132252637513225)
 (.leaf 2642513225264751322526525132252657513225266251322526675132252672513225267751322526825132252687513225269251322526975132252702513225270751322527125132252717513225272251322527275132252732513225273751322527425132252747513225275251322527575132252762513225276751322527725132252777513225278251322527875132252792513225279751322528025132252807513225281251322528175132252822513225282751322528325132252837513225284251322528475132252852513225285751322528625132252867513225287251322528775132252882513225288751322528925132252897513225290251322529075132252912513225291751322529225132252927513225293251322529375132252942513225294751322529525132252957513225))
 (.node 1 (.leaf 2962513225296751322529725132252977513225298251322529875132252992513225299751322530025132253007513225301251322530175132253022513225302751322530325132253037513225304251322530475132253052513225305751322530625132253067513225307251322530775132253082513225308751322530925132253097513225310251322531075132253192513225319751322532025132253207513225321251322532225132253227513225323251322505575131750562513175056751317505725131750577513175058251317505875131750592513175059751317506025131750607513175061251317506175131750622513175062751317506325131750637513175064251317506475131750652513175065751317506625131750667513175067251317506775131750682513175)
 (.leaf 687513175069251317506975131750702513175070751317507125131750717513175072251317507275131750732513175073751317507425131750747513175075251317507575131750762513175076751317507725131750777513175078251317507875131750792513175079751317508025131750807513175081251317508175131750822513175082751317508325131750837513175084251317508475131750852513175085751317508625131750867513175087251317508775131750882513175088751317508925131750897513175090251317509075131750912513175091751317509225131750927513175093251317509375131750942513175094751317509525131750957513175096251317509675131750972513175097751317509825131750987513175099251317509975131751002513175)))
 (.node 2 (.node 1 (.leaf 1007513175101251317510175131751022513175102751317510325131751037513175104251317510475131751052513175105751317510625131751067513175107251317510775131751082513175108751317510925131751097513175110251317517125131751717513175172251317517275131751732513175173751317517425131751747513175175251317517575131751762513175176751317517725131751777513175178251317517875131751792513175179751317518025131751807513175181251317518175131751822513175182751317518325131751887513175189251317519225131751927513175193251317519375131751942513175194751317519525131751957513175196251317519925131751997513175200251317520075131752012513175201751317520225131752027513175)
 (.leaf 2032513175203751317520425131752047513175205251317520575131752062513175206751317520725131752077513175208251317521225131752127513175213251317521375131752142513175214751317521525131752157513175216251317522175131752222513175222751317522325131752237513175224251317522475131752252513175225751317522625131752267513175227251317522775131752282513175228751317523275131752332513175233751317523425131752347513175235251317523575131752362513175236751317523725131752377513175238251317523875131752392513175239751317524025131752407513175241251317524175131752422513175242751317524325131752437513175244251317524475131752452513175245751317524625131752467513175))
 (.node 1 (.leaf 2472513175247751317524825131752487513175249251317524975131752502513175250751317525125131752517513175252251317525275131752532513175253751317525425131752547513175255251317525575131752562513175256751317525725131752577513175258251317525875131752592513175259751317526025131752607513175261251317526175131752622513175262751317526325131752637513175264251317526475131752652513175265751317526625131752667513175267251317526775131752682513175268751317526925131752697513175270251317527075131752712513175271751317527225131752727513175273251317527375131752742513175274751317527525131752757513175276251317527675131752772513175277751317527825131752787513175)
 (.leaf 2792513175279751317528025131752807513175281251317528175131752822513175282751317528325131752837513175284251317528475131752852513175285751317528625131752867513175287251317528775131752882513175288751317528925131752897513175290251317529075131752912513175291751317529225131752927513175293251317529375131752942513175294751317529525131752957513175296251317529675131752972513175297751317529825131752987513175299251317529975131753002513175300751317530125131753017513175302251317530275131753032513175303751317530425131753047513175305251317530575131753062513175306751317530725131753077513175308251317530875131753092513175309751317532025131753207513175))))))))))
 (.node 256 (.node 128 (.node 64 (.node 32 (.node 16 (.node 8 (.node 4 (.node 2 (.node 1 (.leaf 3212513175323251317505575131250562513125056751312505725131250577513125058251312505875131250592513125059751312506025131250607513125061251312506175131250622513125062751312506325131250637513125064251312506475131250652513125065751312506625131250667513125067251312506775131250682513125068751312506925131250697513125070251312507075131250712513125071751312507225131250727513125073251312507375131250742513125074751312507525131250757513125076251312507675131250772513125077751312507825131250787513125079251312507975131250802513125080751312508125131250817513125082251312508275131250832513125083751312508425131250847513125085251312508575131250862513125)
 (.leaf 867513125087251312508775131250882513125088751312508925131250897513125090251312509075131250912513125091751312509225131250927513125093251312509375131250942513125094751312509525131250957513125096251312509675131250972513125097751312509825131250987513125099251312509975131251002513125100751312510125131251017513125102251312510275131251032513125103751312510425131251047513125105251312510575131251062513125106751312510725131251077513125108251312510875131251092513125109751312511025131251712513125171751312517225131251727513125173251312517375131251742513125174751312517525131251757513125176251312517675131251772513125177751312517825131251787513125))
 (.node 1 (.leaf 1792513125179751312518025131251807513125181251312518175131251822513125188251312518875131251892513125189751312519275131251932513125193751312519425131251947513125195251312519575131251962513125196751312519725131251992513125199751312520025131252007513125201251312520175131252022513125202751312520325131252037513125204251312520475131252052513125205751312520625131252067513125207251312520775131252082513125208751312520925131252097513125210251312521075131252112513125211751312521225131252127513125213251312521375131252142513125214751312521525131252157513125216251312521675131252172513125217751312521925131252197513125220251312522075131252212513125)
 (.leaf 2217513125222251312522275131252232513125223751312522425131252247513125225251312522575131252262513125226751312522725131252277513125228251312522875131252292513125232751312523425131252347513125235251312523575131252362513125236751312523725131252377513125238251312523875131252392513125239751312524025131252407513125241251312524175131252422513125242751312524325131252437513125244251312524475131252452513125245751312524625131252467513125247251312524775131252482513125248751312524925131252497513125250251312525075131252512513125251751312525225131252527513125253251312525375131252542513125254751312525525131252557513125256251312525675131252572513125)))
 (.node 2 (.node 1 (.leaf 2577513125258251312525875131252592513125259751312526025131252607513125261251312526175131252622513125262751312526325131252637513125264251312526475131252652513125265751312526625131252667513125267251312526775131252682513125268751312526925131252697513125270251312527075131252712513125271751312527225131252727513125273251312527375131252742513125274751312527525131252757513125276251312527675131252772513125277751312527825131252787513125279251312527975131252802513125280751312528125131252817513125282251312528275131252832513125283751312528425131252847513125285251312528575131252862513125286751312528725131252877513125288251312528875131252892513125)
 (.leaf 2897513125290251312529075131252912513125291751312529225131252927513125293251312529375131252942513125294751312529525131252957513125296251312529675131252972513125297751312529825131252987513125299251312529975131253002513125300751312530125131253017513125302251312530275131253032513125303751312530425131253047513125305251312530575131253062513125306751312530725131253077513125308251312530875131253092513125309751312532025131253207513125321251312505175130750557513075056251307505675130750572513075057751307505825130750587513075059251307505975130750602513075060751307506125130750617513075062251307506275130750632513075063751307506425130750647513075))
 (.node 1 (.leaf 652513075065751307506625130750667513075067251307506775130750682513075068751307506925130750697513075070251307507075130750712513075071751307507225130750727513075073251307507375130750742513075074751307507525130750757513075076251307507675130750772513075077751307507825130750787513075079251307507975130750802513075080751307508125130750817513075082251307508275130750832513075083751307508425130750847513075085251307508575130750862513075086751307508725130750877513075088251307508875130750892513075089751307509025130750907513075091251307509175130750922513075092751307509325130750937513075094251307509475130750952513075095751307509625130750967513075)
 (.leaf 972513075097751307509825130750987513075099251307509975130751002513075100751307510125130751017513075102251307510275130751032513075103751307510425130751047513075105251307510575130751062513075106751307510725130751077513075171251307517175130751722513075172751307517325130751737513075174251307517475130751752513075175751307517625130751767513075177251307517775130751782513075178751307517925130751797513075180251307518075130751882513075188751307518925130751897513075192751307519325130751942513075194751307519525130751957513075196251307519675130751972513075197751307519825130751992513075199751307520025130752007513075201251307520175130752022513075))))
 (.node 4 (.node 2 (.node 1 (.leaf 2027513075203251307520375130752042513075204751307520525130752057513075206251307520675130752072513075207751307520875130752092513075209751307521025130752107513075211251307521175130752122513075212751307521325130752137513075214251307521475130752152513075215751307521625130752167513075217251307521775130752182513075218751307521925130752197513075220251307522075130752212513075221751307522225130752227513075223251307522375130752242513075224751307522525130752257513075226251307522675130752272513075227751307522825130752287513075229251307522975130752302513075232751307523325130752337513075234251307523475130752352513075235751307523625130752367513075)
 (.leaf 2372513075237751307523825130752387513075239251307523975130752402513075240751307524125130752417513075242251307524275130752432513075243751307524425130752447513075245251307524575130752462513075246751307524725130752477513075248251307524875130752492513075249751307525025130752507513075251251307525175130752522513075252751307525325130752537513075254251307525475130752552513075255751307525625130752567513075257251307525775130752582513075258751307525925130752597513075260251307526075130752612513075261751307526225130752627513075263251307526375130752642513075264751307526525130752657513075266251307526675130752672513075267751307526825130752687513075))
 (.node 1 (.leaf 2692513075269751307527025130752707513075271251307527175130752722513075272751307527325130752737513075274251307527475130752752513075275751307527625130752767513075277251307527775130752782513075278751307527925130752797513075280251307528075130752812513075281751307528225130752827513075283251307528375130752842513075284751307528525130752857513075286251307528675130752872513075287751307528825130752887513075289251307528975130752902513075290751307529125130752917513075292251307529275130752932513075293751307529425130752947513075295251307529575130752962513075296751307529725130752977513075298251307529875130752992513075299751307530025130753007513075)
 (.leaf 3012513075301751307530225130753027513075303251307530375130753042513075304751307530525130753057513075306251307530675130753072513075307751307530825130753087513075309251307530975130753197513075320251307532075130753212513075321751307505575130250562513025056751302505725130250577513025058251302505875130250592513025059751302506025130250607513025061251302506175130250622513025062751302506325130250637513025064251302506475130250652513025065751302506625130250667513025067251302506775130250682513025068751302506925130250697513025070251302507075130250712513025071751302507225130250727513025073251302507375130250742513025074751302507525130250757513025)))
 (.node 2 (.node 1 (.leaf 762513025076751302507725130250777513025078251302507875130250792513025079751302508025130250807513025081251302508175130250822513025082751302508325130250837513025084251302508475130250852513025085751302508625130250867513025087251302508775130250882513025088751302508925130250897513025090251302509075130250912513025091751302509225130250927513025093251302509375130250942513025094751302509525130250957513025096251302509675130250972513025097751302509825130250987513025099251302509975130251002513025100751302510125130251017513025102251302510275130251032513025103751302510425130251047513025105251302510575130251062513025171251302517175130251722513025)
 (.leaf 1727513025173251302517375130251742513025174751302517525130251757513025176251302517675130251772513025177751302517825130251787513025179251302517975130251802513025183751302518425130251882513025188751302518925130251897513025194751302519525130251957513025196251302519675130251972513025197751302519825130251987513025199251302519975130252002513025200751302520125130252017513025202251302520275130252032513025203751302520425130252057513025206251302520675130252072513025207751302520825130252087513025209251302520975130252102513025210751302521125130252117513025212251302521275130252132513025213751302521425130252147513025215251302521575130252162513025))
 (.node 1 (.leaf 2167513025217251302521775130252182513025218751302521925130252197513025220251302522075130252212513025221751302522225130252227513025223251302522375130252242513025224751302522525130252257513025226251302522675130252272513025227751302522825130252287513025229251302522975130252302513025232751302523325130252337513025234251302523475130252352513025235751302523625130252367513025237251302523775130252382513025238751302523925130252397513025240251302524075130252412513025241751302524225130252427513025243251302524375130252442513025244751302524525130252457513025246251302524675130252472513025247751302524825130252487513025249251302524975130252502513025)
 (.leaf 2507513025251251302525175130252522513025252751302525325130252537513025254251302525475130252552513025255751302525625130252567513025257251302525775130252582513025258751302525925130252597513025260251302526075130252612513025261751302526225130252627513025263251302526375130252642513025264751302526525130252657513025266251302526675130252672513025267751302526825130252687513025269251302526975130252702513025270751302527125130252717513025272251302527275130252732513025273751302527425130252747513025275251302527575130252762513025276751302527725130252777513025278251302527875130252792513025279751302528025130252807513025281251302528175130252822513025)))))
 (.node 8 (.node 4 (.node 2 (.node 1 (.leaf 2827513025283251302528375130252842513025284751302528525130252857513025286251302528675130252872513025287751302528825130252887513025289251302528975130252902513025290751302529125130252917513025292251302529275130252932513025293751302529425130252947513025295251302529575130252962513025296751302529725130252977513025298251302529875130252992513025299751302530025130253007513025302251302530275130253032513025303751302530425130253047513025305251302530575130253062513025306751302530725130253077513025308251302530875130253092513025319751302532025130253207513025321251302532175130250557512975056251297505675129750572512975057751297505825129750587512975)
 (.leaf 592512975059751297506025129750607512975061251297506175129750622512975062751297506325129750637512975064251297506475129750652512975065751297506625129750667512975067251297506775129750682512975068751297506925129750697512975070251297507075129750712512975071751297507225129750727512975073251297507375129750742512975074751297507525129750757512975076251297507675129750772512975077751297507825129750787512975079251297507975129750802512975080751297508125129750817512975082251297508275129750832512975083751297508425129750847512975085251297508575129750862512975086751297508725129750877512975088251297508875129750892512975089751297509025129750907512975))
 (.node 1 (.leaf 912512975091751297509225129750927512975093251297509375129750942512975094751297509525129750957512975096251297509675129750972512975097751297509825129750987512975099251297509975129751002512975100751297510125129751017512975102251297510275129751032512975103751297510425129751047512975105251297510575129751487512975170751297517125129751717512975172251297517275129751732512975173751297517425129751747512975175251297517575129751762512975176751297517725129751777512975178251297517875129751792512975179751297518225129751827512975183251297518375129751842512975188251297518875129751892512975189751297519525129751957512975196251297519675129751977512975)
 (.leaf 1982512975199751297520025129752007512975201251297520175129752022512975202751297520325129752037512975205251297520625129752067512975207251297520775129752082512975208751297520925129752097512975210251297521075129752112512975211751297521225129752127512975213251297521375129752142512975214751297521525129752157512975216251297521675129752172512975217751297521825129752187512975219251297521975129752202512975220751297522125129752217512975222251297522275129752232512975223751297522425129752247512975225251297522575129752262512975226751297522725129752277512975228251297522875129752292512975229751297523325129752337512975234251297523475129752352512975)))
 (.node 2 (.node 1 (.leaf 2357512975236251297523675129752372512975237751297523825129752387512975239251297523975129752402512975240751297524125129752417512975242251297524275129752432512975243751297524425129752447512975245251297524575129752462512975246751297524725129752477512975248251297524875129752492512975249751297525025129752507512975251251297525175129752522512975252751297525325129752537512975254251297525475129752552512975255751297525625129752567512975257251297525775129752582512975258751297525925129752597512975260251297526075129752612512975261751297526225129752627512975263251297526375129752642512975264751297526525129752657512975266251297526675129752672512975)
 (.leaf 2677512975268251297526875129752692512975269751297527025129752707512975271251297527175129752722512975272751297527325129752737512975274251297527475129752752512975275751297527625129752767512975277251297527775129752782512975278751297527925129752797512975280251297528075129752812512975281751297528225129752827512975283251297528375129752842512975284751297528525129752857512975286251297528675129752872512975287751297528825129752887512975289251297528975129752902512975290751297529125129752917512975292251297529275129752932512975293751297529425129752947512975295251297529575129752962512975296751297529725129752977512975298251297529875129752992512975))
 (.node 1 (.leaf 2997512975301251297530175129753022512975302751297530325129753037512975304251297530475129753052512975305751297530625129753067512975307251297530775129753197512975320251297532075129753212512975321751297532225129750562512925056751292505725129250577512925058251292505875129250592512925059751292506025129250607512925061251292506175129250622512925062751292506325129250637512925064251292506475129250652512925065751292506625129250667512925067251292506775129250682512925068751292506925129250697512925070251292507075129250712512925071751292507225129250727512925073251292507375129250742512925074751292507525129250757512925076251292507675129250772512925)
 (.leaf 777512925078251292507875129250792512925079751292508025129250807512925081251292508175129250822512925082751292508325129250837512925084251292508475129250852512925085751292508625129250867512925087251292508775129250882512925088751292508925129250897512925090251292509075129250912512925091751292509225129250927512925093251292509375129250942512925094751292509525129250957512925096251292509675129250972512925097751292509825129250987512925099251292509975129251002512925100751292510125129251017512925102251292510275129251032512925103751292510425129251047512925105251292510575129251487512925170751292517125129251717512925172251292517275129251732512925))))
 (.node 4 (.node 2 (.node 1 (.leaf 1737512925174251292517475129251752512925175751292517625129251767512925177251292517775129251782512925178751292517925129251797512925181251292518175129251827512925183251292518825129251887512925189251292518975129251957512925196251292519675129251972512925199751292520025129252007512925201251292520175129252022512925202751292520325129252037512925205751292520625129252067512925207251292520775129252082512925208751292520925129252097512925210251292521075129252112512925211751292521225129252127512925213251292521375129252142512925214751292521525129252157512925216251292521675129252172512925217751292521825129252187512925219251292521975129252202512925)
 (.leaf 2207512925221251292522175129252222512925222751292522325129252237512925224251292522475129252252512925225751292522625129252267512925227251292522775129252282512925228751292522925129252332512925233751292523425129252347512925235251292523575129252362512925236751292523725129252377512925238251292523875129252392512925239751292524025129252407512925241251292524175129252422512925242751292524325129252437512925244251292524475129252452512925245751292524625129252467512925247251292524775129252482512925248751292524925129252497512925250251292525075129252512512925251751292525225129252527512925253251292525375129252542512925254751292525525129252557512925))
 (.node 1 (.leaf 2562512925256751292525725129252577512925258251292525875129252592512925259751292526025129252607512925261251292526175129252622512925262751292526325129252637512925264251292526475129252652512925265751292526625129252667512925267251292526775129252682512925268751292526925129252697512925270251292527075129252712512925271751292527225129252727512925273251292527375129252742512925274751292527525129252757512925276251292527675129252772512925277751292527825129252787512925279251292527975129252802512925280751292528125129252817512925282251292528275129252832512925283751292528425129252847512925285251292528575129252862512925286751292528725129252877512925)
 (.leaf 2882512925288751292528925129252897512925290251292529075129252912512925291751292529225129252927512925293251292529375129252942512925294751292529525129252957512925296251292529675129252972512925297751292529825129252987512925299251292530125129253017512925302251292530275129253032512925305251292530575129253062512925306751292530725129253077512925319751292532025129253207512925321251292532175129250562512875056751287505725128750577512875058251287505875128750592512875059751287506025128750607512875061251287506175128750622512875062751287506325128750637512875064251287506475128750652512875065751287506625128750667512875067251287506775128750682512875)))
 (.node 2 (.node 1 (.leaf 687512875069251287506975128750702512875070751287507125128750717512875072251287507275128750732512875073751287507425128750747512875075251287507575128750762512875076751287507725128750777512875078251287507875128750792512875079751287508025128750807512875081251287508175128750822512875082751287508325128750837512875084251287508475128750852512875085751287508625128750867512875087251287508775128750882512875088751287508925128750897512875090251287509075128750912512875091751287509225128750927512875093251287509375128750942512875094751287509525128750957512875096251287509675128750972512875097751287509825128750987512875099251287509975128751002512875)
 (.leaf 1007512875101251287510175128751022512875102751287510325128751037512875104251287510475128751512512875152751287517075128751712512875171751287517225128751727512875173251287517375128751742512875174751287517525128751757512875176251287517675128751772512875177751287517825128751787512875179251287517975128751802512875181251287518825128751887512875189251287519325128751942512875194751287519525128751957512875196251287519675128751972512875200751287520125128752017512875202251287520275128752032512875203751287520425128752047512875205751287520625128752067512875207251287520775128752082512875208751287520925128752097512875210251287521075128752112512875))
 (.node 1 (.leaf 2117512875212251287521275128752132512875213751287521425128752147512875215251287521575128752162512875216751287521725128752177512875218251287521875128752192512875219751287522025128752207512875221251287522175128752222512875222751287522325128752237512875224251287522475128752252512875225751287522625128752267512875227251287522775128752282512875228751287523425128752347512875235251287523575128752362512875236751287523725128752377512875238251287523875128752392512875239751287524025128752407512875241251287524175128752422512875242751287524325128752437512875244251287524475128752452512875245751287524625128752467512875247251287524775128752482512875)
 (.leaf 2487512875249251287524975128752502512875250751287525125128752517512875252251287525275128752532512875253751287525425128752547512875255251287525575128752562512875256751287525725128752577512875258251287525875128752592512875259751287526025128752607512875261251287526175128752622512875262751287526325128752637512875264251287526475128752652512875265751287526625128752667512875267251287526775128752682512875268751287526925128752697512875270251287527075128752712512875271751287527225128752727512875273251287527375128752742512875274751287527525128752757512875276251287527675128752772512875277751287527825128752787512875279251287527975128752802512875))))))
 (.node 16 (.node 8 (.node 4 (.node 2 (.node 1 (.leaf 2807512875281251287528175128752822512875282751287528325128752837512875284251287528475128752852512875285751287528625128752867512875287251287528775128752882512875288751287528925128752897512875290251287529075128752912512875291751287529225128752927512875293251287529375128752942512875294751287529525128752957512875296251287529675128752972512875297751287530125128753017512875305251287530575128753062512875306751287530725128753077512875308251287531975128753202512875320751287532125128753217512875056751282505725128250577512825058251282505875128250592512825059751282506025128250607512825061251282506175128250622512825062751282506325128250637512825)
 (.leaf 642512825064751282506525128250657512825066251282506675128250672512825067751282506825128250687512825069251282506975128250702512825070751282507125128250717512825072251282507275128250732512825073751282507425128250747512825075251282507575128250762512825076751282507725128250777512825078251282507875128250792512825079751282508025128250807512825081251282508175128250822512825082751282508325128250837512825084251282508475128250852512825085751282508625128250867512825087251282508775128250882512825088751282508925128250897512825090251282509075128250912512825091751282509225128250927512825093251282509375128250942512825094751282509525128250957512825))
 (.node 1 (.leaf 962512825096751282509725128250977512825098251282509875128250992512825099751282510025128251007512825101251282510175128251022512825102751282510325128251037512825104251282510475128251512512825151751282517075128251712512825171751282517225128251727512825173251282517375128251742512825174751282517525128251757512825176251282517675128251772512825177751282517825128251787512825179251282517975128251922512825192751282519325128251937512825194251282519475128251952512825195751282519625128251967512825200251282520075128252012512825201751282520225128252027512825203251282520375128252042512825204751282520575128252062512825206751282520725128252077512825)
 (.leaf 2082512825208751282520925128252097512825210251282521075128252112512825211751282521225128252127512825213251282521375128252142512825214751282521525128252157512825216251282521675128252172512825217751282521825128252187512825219251282521975128252202512825220751282522125128252217512825222251282522275128252232512825223751282522425128252247512825225251282522575128252262512825226751282522725128252277512825228251282522875128252292512825234251282523475128252352512825235751282523625128252367512825237251282523775128252382512825238751282523925128252397512825240251282524075128252412512825241751282524225128252427512825243251282524375128252442512825)))
 (.node 2 (.node 1 (.leaf 2447512825245251282524575128252462512825246751282524725128252477512825248251282524875128252492512825249751282525025128252507512825251251282525175128252522512825252751282525325128252537512825254251282525475128252552512825255751282525625128252567512825257251282525775128252582512825258751282525925128252597512825260251282526075128252612512825261751282526225128252627512825263251282526375128252642512825264751282526525128252657512825266251282526675128252672512825267751282526825128252687512825269251282526975128252702512825270751282527125128252717512825272251282527275128252732512825273751282527425128252747512825275251282527575128252762512825)
 (.leaf 2767512825277251282527775128252782512825278751282527925128252797512825280251282528075128252812512825281751282528225128252827512825283251282528375128252842512825284751282528525128252857512825286251282528675128252872512825287751282528825128252887512825289251282528975128252902512825290751282529125128252917512825292251282529275128252932512825293751282529425128252947512825295251282529575128252962512825296751282529725128252977512825298251282529875128253007512825304751282530525128253057512825306251282530675128253072512825307751282530825128253087512825318251282531875128253192512825319751282532025128253207512825321251282532175128250572512775))
 (.node 1 (.leaf 577512775058251277505875127750592512775059751277506025127750607512775061251277506175127750622512775062751277506325127750637512775064251277506475127750652512775065751277506625127750667512775067251277506775127750682512775068751277506925127750697512775070251277507075127750712512775071751277507225127750727512775073251277507375127750742512775074751277507525127750757512775076251277507675127750772512775077751277507825127750787512775079251277507975127750802512775080751277508125127750817512775082251277508275127750832512775083751277508425127750847512775085251277508575127750862512775086751277508725127750877512775088251277508875127750892512775)
 (.leaf 897512775090251277509075127750912512775091751277509225127750927512775093251277509375127750942512775094751277509525127750957512775096251277509675127750972512775097751277509825127750987512775099251277509975127751002512775100751277510125127751017512775102251277510275127751032512775103751277510425127751047512775154251277515475127751712512775171751277517225127751727512775173251277517375127751742512775174751277517525127751757512775176251277517675127751772512775177751277517825127751787512775179251277518875127751922512775192751277519325127751937512775194251277519475127751952512775195751277519625127752007512775201251277520175127752022512775))))
 (.node 4 (.node 2 (.node 1 (.leaf 2027512775203251277520375127752042512775204751277520525127752062512775206751277520725127752077512775208251277520875127752092512775209751277521025127752107512775211251277521175127752122512775212751277521325127752137512775214251277521475127752152512775215751277521625127752167512775217251277521775127752182512775218751277521925127752197512775220251277522075127752212512775221751277522225127752227512775223251277522375127752242512775224751277522525127752257512775226251277522675127752272512775227751277522825127752287512775229251277523425127752347512775235251277523575127752362512775236751277523725127752377512775238251277523875127752392512775)
 (.leaf 2397512775240251277524075127752412512775241751277524225127752427512775243251277524375127752442512775244751277524525127752457512775246251277524675127752472512775247751277524825127752487512775249251277524975127752502512775250751277525125127752517512775252251277525275127752532512775253751277525425127752547512775255251277525575127752562512775256751277525725127752577512775258251277525875127752592512775259751277526025127752607512775261251277526175127752622512775262751277526325127752637512775264251277526475127752652512775265751277526625127752667512775267251277526775127752682512775268751277526925127752697512775270251277527075127752712512775))
 (.node 1 (.leaf 2717512775272251277527275127752732512775273751277527425127752747512775275251277527575127752762512775276751277527725127752777512775278251277527875127752792512775279751277528025127752807512775281251277528175127752822512775282751277528325127752837512775284251277528475127752852512775285751277528625127752867512775287251277528775127752882512775288751277528925127752897512775290251277529075127752912512775291751277529225127752927512775293251277529375127752942512775294751277529525127752957512775296251277529675127752972512775297751277529825127752987512775300251277530075127753012512775301751277530525127753057512775306251277530675127753072512775)
 (.leaf 3077512775308251277530875127753092512775318251277531875127753192512775319751277532025127753207512775057751272505825127250587512725059251272505975127250602512725060751272506125127250617512725062251272506275127250632512725063751272506425127250647512725065251272506575127250662512725066751272506725127250677512725068251272506875127250692512725069751272507025127250707512725071251272507175127250722512725072751272507325127250737512725074251272507475127250752512725075751272507625127250767512725077251272507775127250782512725078751272507925127250797512725080251272508075127250812512725081751272508225127250827512725083251272508375127250842512725)))
 (.node 2 (.node 1 (.leaf 847512725085251272508575127250862512725086751272508725127250877512725088251272508875127250892512725089751272509025127250907512725091251272509175127250922512725092751272509325127250937512725094251272509475127250952512725095751272509625127250967512725097251272509775127250982512725098751272509925127250997512725100251272510075127251012512725101751272510225127251027512725103251272510375127251042512725154751272517075127251712512725171751272517225127251727512725173251272517375127251742512725174751272517525127251757512725176251272517675127251772512725177751272517825127251862512725186751272518725127251877512725188751272518925127251897512725)
 (.leaf 1902512725190751272519125127251932512725193751272519425127251947512725195251272520175127252022512725202751272520325127252042512725204751272520525127252057512725206751272520725127252077512725208251272520875127252092512725209751272521025127252107512725211251272521175127252122512725212751272521325127252137512725214251272521475127252152512725215751272521625127252167512725217251272521775127252182512725218751272521925127252197512725220251272522075127252212512725221751272522225127252227512725223251272522375127252242512725224751272522525127252257512725226251272522675127252272512725227751272522825127252287512725229251272522975127252302512725))
 (.node 1 (.leaf 2337512725234251272523475127252352512725235751272523625127252367512725237251272523775127252382512725238751272523925127252397512725240251272524075127252412512725241751272524225127252427512725243251272524375127252442512725244751272524525127252457512725246251272524675127252472512725247751272524825127252487512725249251272524975127252502512725250751272525125127252517512725252251272525275127252532512725253751272525425127252547512725255251272525575127252562512725256751272525725127252577512725258251272525875127252592512725259751272526025127252607512725261251272526175127252622512725262751272526325127252637512725264251272526475127252652512725)
 (.leaf 2657512725266251272526675127252672512725267751272526825127252687512725269251272526975127252702512725270751272527125127252717512725272251272527275127252732512725273751272527425127252747512725275251272527575127252762512725276751272527725127252777512725278251272527875127252792512725279751272528025127252807512725281251272528175127252822512725282751272528325127252837512725284251272528475127252852512725285751272528625127252867512725287251272528775127252882512725288751272528925127252897512725290251272529075127252912512725291751272529225127252927512725293251272529375127252942512725294751272529525127252957512725296251272529675127252972512725)))))
 (.node 8 (.node 4 (.node 2 (.node 1 (.leaf 2977512725298251272529875127252992512725299751272530025127253007512725301251272530175127253022512725302751272530625127253067512725307251272530775127253082512725308751272530925127253107512725316751272531725127253177512725318251272531875127253192512725319751272532025127253207512725321251272505775126750582512675058751267505925126750597512675060251267506075126750612512675061751267506225126750627512675063251267506375126750642512675064751267506525126750657512675066251267506675126750672512675067751267506825126750687512675069251267506975126750702512675070751267507125126750717512675072251267507275126750732512675073751267507425126750747512675)
 (.leaf 752512675075751267507625126750767512675077251267507775126750782512675078751267507925126750797512675080251267508075126750812512675081751267508225126750827512675083251267508375126750842512675084751267508525126750857512675086251267508675126750872512675087751267508825126750887512675089251267508975126750902512675090751267509125126750917512675092251267509275126750932512675093751267509425126750947512675095251267509575126750962512675096751267509725126750977512675098251267509875126750992512675099751267510025126751007512675101251267510175126751022512675102751267510325126751037512675104251267515475126751707512675171251267517175126751722512675))
 (.node 1 (.leaf 1737512675174251267517475126751752512675175751267517625126751767512675177251267517775126751782512675178751267518125126751817512675182251267518275126751832512675183751267518425126751847512675185251267518575126751862512675186751267518725126751877512675188251267518875126751892512675189751267519025126751907512675191251267519175126751922512675194251267519475126751952512675201751267520225126752027512675203251267520425126752047512675205251267520575126752062512675207251267520775126752082512675208751267520925126752097512675210251267521075126752112512675211751267521225126752127512675213251267521375126752142512675214751267521525126752157512675)
 (.leaf 2162512675216751267521725126752177512675218251267521875126752192512675219751267522025126752207512675221251267522175126752222512675222751267522325126752237512675224251267522475126752252512675225751267522625126752267512675227251267522775126752282512675228751267522925126752297512675230251267523075126752312512675231751267523275126752332512675233751267523425126752347512675235251267523575126752362512675236751267523725126752377512675238251267523875126752392512675239751267524025126752407512675241251267524175126752422512675242751267524325126752437512675244251267524475126752452512675245751267524625126752467512675247251267524775126752482512675)))
 (.node 2 (.node 1 (.leaf 2487512675249251267524975126752502512675250751267525125126752517512675252251267525275126752532512675253751267525425126752547512675255251267525575126752562512675256751267525725126752577512675258251267525875126752592512675259751267526025126752607512675261251267526175126752622512675262751267526325126752637512675264251267526475126752652512675265751267526625126752667512675267251267526775126752682512675268751267526925126752697512675270251267527075126752712512675271751267527225126752727512675273251267527375126752742512675274751267527525126752757512675276251267527675126752772512675277751267527825126752787512675279251267527975126752802512675)
 (.leaf 2807512675281251267528175126752822512675282751267528325126752837512675284251267528475126752852512675285751267528625126752867512675287251267528775126752882512675288751267528925126752897512675290251267529075126752912512675291751267529225126752927512675293251267529375126752942512675294751267529525126752957512675296251267529675126752972512675297751267529825126752987512675299251267529975126753002512675300751267530125126753017512675302251267530275126753062512675306751267530725126753077512675308251267530875126753092512675316751267531725126753177512675318251267531875126753192512675319751267532025126753207512675058251262505875126250592512625))
 (.node 1 (.leaf 597512625060251262506075126250612512625061751262506225126250627512625063251262506375126250642512625064751262506525126250657512625066251262506675126250672512625067751262506825126250687512625069251262506975126250702512625070751262507125126250717512625072251262507275126250732512625073751262507425126250747512625075251262507575126250762512625076751262507725126250777512625078251262507875126250792512625079751262508025126250807512625081251262508175126250822512625082751262508325126250837512625084251262508475126250852512625085751262508625126250867512625087251262508775126250882512625088751262508925126250897512625090251262509075126250912512625)
 (.leaf 917512625092251262509275126250932512625093751262509425126250947512625095251262509575126250962512625096751262509725126250977512625098251262509875126250992512625099751262510025126251007512625101251262510175126251022512625102751262510325126251037512625104251262517375126251742512625174751262518025126251807512625181251262518175126251822512625182751262518325126251837512625184251262518475126251852512625185751262518625126251867512625187251262518775126251882512625188751262518925126251897512625190251262519075126251942512625202251262520275126252032512625205251262520575126252077512625208251262520925126252097512625210251262521225126252127512625))))
 (.node 4 (.node 2 (.node 1 (.leaf 2132512625213751262521425126252157512625216251262521675126252172512625217751262521825126252187512625219251262521975126252202512625220751262522125126252217512625222251262522275126252232512625223751262522425126252247512625225251262522575126252262512625226751262522725126252277512625228251262522875126252292512625229751262523025126252307512625231251262523175126252322512625232751262523325126252337512625234251262523475126252352512625235751262523625126252367512625237251262523775126252382512625238751262523925126252397512625240251262524075126252412512625241751262524225126252427512625243251262524375126252442512625244751262524525126252457512625)
 (.leaf 2462512625246751262524725126252477512625248251262524875126252492512625249751262525025126252507512625251251262525175126252522512625252751262525325126252537512625254251262525475126252552512625255751262525625126252567512625257251262525775126252582512625258751262525925126252597512625260251262526075126252612512625261751262526225126252627512625263251262526375126252642512625264751262526525126252657512625266251262526675126252672512625267751262526825126252687512625269251262526975126252702512625270751262527125126252717512625272251262527275126252732512625273751262527425126252747512625275251262527575126252762512625276751262527725126252777512625))
 (.node 1 (.leaf 2782512625278751262527925126252797512625280251262528075126252812512625281751262528225126252827512625283251262528375126252842512625284751262528525126252857512625286251262528675126252872512625287751262528825126252887512625289251262528975126252902512625290751262529125126252917512625292251262529275126252932512625293751262529425126252947512625295251262529575126252962512625296751262529725126252977512625298251262529875126252992512625299751262530025126253007512625306251262530675126253072512625307751262530825126253087512625309251262531325126253162512625316751262531725126253177512625318251262531875126253192512625319751262532025126253207512625)
 (.leaf 587512575059251257505975125750602512575060751257506125125750617512575062251257506275125750632512575063751257506425125750647512575065251257506575125750662512575066751257506725125750677512575068251257506875125750692512575069751257507025125750707512575071251257507175125750722512575072751257507325125750737512575074251257507475125750752512575075751257507625125750767512575077251257507775125750782512575078751257507925125750797512575080251257508075125750812512575081751257508225125750827512575083251257508375125750842512575084751257508525125750857512575086251257508675125750872512575087751257508825125750887512575089251257508975125750902512575)))
 (.node 2 (.node 1 (.leaf 907512575091251257509175125750922512575092751257509325125750937512575094251257509475125750952512575095751257509625125750967512575097251257509775125750982512575098751257509925125750997512575100251257510075125751012512575101751257510225125751027512575103251257510375125751042512575174251257517475125751787512575179251257517975125751802512575180751257518125125751817512575182251257518275125751832512575183751257518425125751847512575185251257518575125751862512575186751257518725125751877512575188251257518875125751892512575189751257519025125751907512575191251257519275125751942512575194751257520325125752037512575204251257520725125752077512575)
 (.leaf 2142512575215751257521625125752167512575217251257521775125752182512575218751257521925125752197512575220251257522075125752212512575221751257522225125752227512575223251257522375125752242512575224751257522525125752257512575226251257522675125752272512575227751257522825125752287512575229251257522975125752302512575230751257523125125752317512575232251257523275125752332512575233751257523425125752347512575235251257523575125752362512575236751257523725125752377512575238251257523875125752392512575239751257524025125752407512575241251257524175125752422512575242751257524325125752437512575244251257524475125752452512575245751257524625125752467512575))
 (.node 1 (.leaf 2472512575247751257524825125752487512575249251257524975125752502512575250751257525125125752517512575252251257525275125752532512575253751257525425125752547512575255251257525575125752562512575256751257525725125752577512575258251257525875125752592512575259751257526025125752607512575261251257526175125752622512575262751257526325125752637512575264251257526475125752652512575265751257526625125752667512575267251257526775125752682512575268751257526925125752697512575270251257527075125752712512575271751257527225125752727512575273251257527375125752742512575274751257527525125752757512575276251257527675125752772512575277751257527825125752787512575)
 (.leaf 2792512575279751257528025125752807512575281251257528175125752822512575282751257528325125752837512575284251257528475125752852512575285751257528625125752867512575287251257528775125752882512575288751257528925125752897512575290251257529075125752912512575291751257529225125752927512575293251257529375125752942512575294751257529525125752957512575296251257529675125752972512575297751257529825125752987512575299251257529975125753002512575306251257530675125753072512575307751257530825125753087512575309251257530975125753127512575313251257531425125753147512575315251257531575125753162512575316751257531725125753177512575318251257531875125753192512575)))))))
 (.node 32 (.node 16 (.node 8 (.node 4 (.node 2 (.node 1 (.leaf 3197512575320251257532075125750587512525059251252505975125250602512525060751252506125125250617512525062251252506275125250632512525063751252506425125250647512525065251252506575125250662512525066751252506725125250677512525068251252506875125250692512525069751252507025125250707512525071251252507175125250722512525072751252507325125250737512525074251252507475125250752512525075751252507625125250767512525077251252507775125250782512525078751252507925125250797512525080251252508075125250812512525081751252508225125250827512525083251252508375125250842512525084751252508525125250857512525086251252508675125250872512525087751252508825125250887512525)
 (.leaf 892512525089751252509025125250907512525091251252509175125250922512525092751252509325125250937512525094251252509475125250952512525095751252509625125250967512525097251252509775125250982512525098751252509925125250997512525100251252510075125251012512525101751252510225125251027512525103251252510375125251042512525173751252517425125251747512525175251252517575125251762512525176751252517725125251777512525178251252517875125251792512525179751252518025125251807512525181251252518175125251822512525182751252518325125251837512525184251252518475125251852512525185751252518625125251867512525187251252518775125251882512525188751252518925125251897512525))
 (.node 1 (.leaf 1902512525190751252519125125251927512525203751252520425125252047512525205251252520575125252062512525206751252520725125252122512525212751252521325125252137512525214251252521575125252162512525216751252521725125252177512525218251252521875125252192512525219751252522025125252207512525221251252522175125252222512525222751252522325125252237512525224251252522475125252252512525225751252522625125252267512525227251252522775125252282512525228751252522925125252297512525230251252523075125252312512525231751252523225125252327512525233251252523375125252342512525234751252523525125252357512525236251252523675125252372512525237751252523825125252387512525)
 (.leaf 2392512525239751252524025125252407512525241251252524175125252422512525242751252524325125252437512525244251252524475125252452512525245751252524625125252467512525247251252524775125252482512525248751252524925125252497512525250251252525075125252512512525251751252525225125252527512525253251252525375125252542512525254751252525525125252557512525256251252525675125252572512525257751252525825125252587512525259251252525975125252602512525260751252526125125252617512525262251252526275125252632512525263751252526425125252647512525265251252526575125252662512525266751252526725125252677512525268251252526875125252692512525269751252527025125252707512525)))
 (.node 2 (.node 1 (.leaf 2712512525271751252527225125252727512525273251252527375125252742512525274751252527525125252757512525276251252527675125252772512525277751252527825125252787512525279251252527975125252802512525280751252528125125252817512525282251252528275125252832512525283751252528425125252847512525285251252528575125252862512525286751252528725125252877512525288251252528875125252892512525289751252529025125252907512525291251252529175125252922512525292751252529325125252937512525294251252529475125252952512525295751252529625125252967512525297251252529775125252982512525298751252529925125252997512525306251252530675125253072512525307751252530825125253087512525)
 (.leaf 3092512525312251252531275125253132512525313751252531425125253147512525315251252531575125253162512525316751252531725125253177512525318251252531875125253192512525319751252532025125250592512475059751247506025124750607512475061251247506175124750622512475062751247506325124750637512475064251247506475124750652512475065751247506625124750667512475067251247506775124750682512475068751247506925124750697512475070251247507075124750712512475071751247507225124750727512475073251247507375124750742512475074751247507525124750757512475076251247507675124750772512475077751247507825124750787512475079251247507975124750802512475080751247508125124750817512475))
 (.node 1 (.leaf 822512475082751247508325124750837512475084251247508475124750852512475085751247508625124750867512475087251247508775124750882512475088751247508925124750897512475090251247509075124750912512475091751247509225124750927512475093251247509375124750942512475094751247509525124750957512475096251247509675124750972512475097751247509825124750987512475099251247509975124751002512475100751247510125124751017512475102251247510275124751032512475103751247517375124751742512475174751247517525124751757512475176251247517675124751772512475177751247517825124751787512475179251247517975124751802512475180751247518125124751817512475182251247518275124751832512475)
 (.leaf 1837512475184251247518475124751852512475185751247518625124751867512475187251247518775124751882512475188751247518925124751897512475190251247519075124751912512475204751247520525124752112512475211751247521225124752127512475213251247521375124752157512475216251247521675124752172512475217751247521825124752187512475219251247521975124752202512475220751247522125124752217512475222251247522275124752232512475223751247522425124752247512475225251247522575124752262512475226751247522725124752277512475228251247522875124752292512475229751247523025124752307512475231251247523175124752322512475232751247523325124752337512475234251247523475124752352512475))))
 (.node 4 (.node 2 (.node 1 (.leaf 2357512475236251247523675124752372512475237751247523825124752387512475239251247523975124752402512475240751247524125124752417512475242251247524275124752432512475243751247524425124752447512475245251247524575124752462512475246751247524725124752477512475248251247524875124752492512475249751247525025124752507512475251251247525175124752522512475252751247525325124752537512475254251247525475124752552512475255751247525625124752567512475257251247525775124752582512475258751247525925124752597512475260251247526075124752612512475261751247526225124752627512475263251247526375124752642512475264751247526525124752657512475266251247526675124752672512475)
 (.leaf 2677512475268251247526875124752692512475269751247527025124752707512475271251247527175124752722512475272751247527325124752737512475274251247527475124752752512475275751247527625124752767512475277251247527775124752782512475278751247527925124752797512475280251247528075124752812512475281751247528225124752827512475283251247528375124752842512475284751247528525124752857512475286251247528675124752872512475287751247528825124752887512475289251247528975124752902512475290751247529125124752917512475292251247529275124752932512475293751247529425124752947512475295251247529575124752962512475296751247529725124752977512475298251247529875124752992512475))
 (.node 1 (.leaf 3062512475306751247530725124753077512475308251247530875124753092512475311251247531175124753122512475312751247531325124753137512475314251247531475124753152512475315751247531625124753167512475317251247531775124753182512475318751247531925124753197512475059751242506025124250607512425061251242506175124250622512425062751242506325124250637512425064251242506475124250652512425065751242506625124250667512425067251242506775124250682512425068751242506925124250697512425070251242507075124250712512425071751242507225124250727512425073251242507375124250742512425074751242507525124250757512425076251242507675124250772512425077751242507825124250787512425)
 (.leaf 792512425079751242508025124250807512425081251242508175124250822512425082751242508325124250837512425084251242508475124250852512425085751242508625124250867512425087251242508775124250882512425088751242508925124250897512425090251242509075124250912512425091751242509225124250927512425093251242509375124250942512425094751242509525124250957512425096251242509675124250972512425097751242509825124250987512425099251242509975124251002512425100751242510125124251017512425102251242510275124251277512425128251242517325124251737512425174251242517475124251752512425175751242517625124251767512425177251242517775124251782512425178751242517925124251797512425)))
 (.node 2 (.node 1 (.leaf 1802512425180751242518125124251817512425182251242518275124251832512425183751242518425124251847512425185251242518575124251862512425186751242518725124251877512425188251242518875124251892512425189751242519025124252157512425216251242521675124252172512425217751242521825124252187512425219251242521975124252202512425220751242522125124252217512425222251242522275124252232512425223751242522425124252247512425225251242522575124252262512425226751242522725124252277512425228251242522875124252292512425229751242523025124252307512425231251242523175124252322512425232751242523325124252337512425234251242523475124252352512425235751242523625124252367512425)
 (.leaf 2372512425237751242523825124252387512425239251242523975124252402512425240751242524125124252417512425242251242524275124252432512425243751242524425124252447512425245251242524575124252462512425246751242524725124252477512425248251242524875124252492512425249751242525025124252507512425251251242525175124252522512425252751242525325124252537512425254251242525475124252552512425255751242525625124252567512425257251242525775124252582512425258751242525925124252597512425260251242526075124252612512425261751242526225124252627512425263251242526375124252642512425264751242526525124252657512425266251242526675124252672512425267751242526825124252687512425))
 (.node 1 (.leaf 2692512425269751242527025124252707512425271251242527175124252722512425272751242527325124252737512425274251242527475124252752512425275751242527625124252767512425277251242527775124252782512425278751242527925124252797512425280251242528075124252812512425281751242528225124252827512425283251242528375124252842512425284751242528525124252857512425286251242528675124252872512425287751242528825124252887512425289251242528975124252902512425290751242529125124252917512425292251242529275124252932512425293751242529425124252947512425295251242529575124252962512425296751242529725124252977512425298251242529875124252992512425299751242530025124253062512425)
 (.leaf 3067512425307251242530775124253092512425310751242531125124253117512425312251242531275124253132512425313751242531425124253147512425315251242531575124253162512425316751242505975123750602512375061751237506225123750627512375063251237506375123750642512375064751237506525123750657512375066251237506675123750672512375067751237506825123750687512375069251237506975123750702512375070751237507125123750717512375072251237507275123750732512375073751237507425123750747512375075251237507575123750762512375076751237507725123750777512375078251237507875123750792512375079751237508025123750807512375081251237508175123750822512375082751237508325123750837512375)))))
 (.node 8 (.node 4 (.node 2 (.node 1 (.leaf 842512375084751237508525123750857512375086251237508675123750872512375087751237508825123750887512375089251237508975123750902512375090751237509125123750917512375092251237509275123750932512375093751237509425123750947512375095251237509575123750962512375096751237509725123750977512375098251237509875123750992512375099751237510025123751007512375101251237510175123751022512375127751237512825123751722512375172751237517325123751737512375174251237517475123751752512375175751237517625123751767512375177251237517775123751782512375178751237517925123751797512375180251237518075123751812512375181751237518225123751827512375183251237518375123751842512375)
 (.leaf 1847512375185251237518575123751862512375186751237518725123751877512375188251237518875123751892512375189751237519025123751907512375191251237521525123752157512375216251237521675123752172512375217751237521825123752187512375219251237521975123752202512375220751237522125123752217512375222251237522275123752232512375223751237522425123752247512375225251237522575123752262512375226751237522725123752277512375228251237522875123752292512375229751237523025123752307512375231251237523175123752322512375232751237523325123752337512375234251237523475123752352512375235751237523625123752367512375237251237523775123752382512375238751237523925123752397512375))
 (.node 1 (.leaf 2402512375240751237524125123752417512375242251237524275123752432512375243751237524425123752447512375245251237524575123752462512375246751237524725123752477512375248251237524875123752492512375249751237525025123752507512375251251237525175123752522512375252751237525325123752537512375254251237525475123752552512375255751237525625123752567512375257251237525775123752582512375258751237525925123752597512375260251237526075123752612512375261751237526225123752627512375263251237526375123752642512375264751237526525123752657512375266251237526675123752672512375267751237526825123752687512375269251237526975123752702512375270751237527125123752717512375)
 (.leaf 2722512375272751237527325123752737512375274251237527475123752752512375275751237527625123752767512375277251237527775123752782512375278751237527925123752797512375280251237528075123752812512375281751237528225123752827512375283251237528375123752842512375284751237528525123752857512375286251237528675123752872512375287751237528825123752887512375289251237528975123752902512375290751237529125123752917512375292251237529275123752932512375293751237529425123752947512375295251237529575123752962512375296751237529725123752977512375298251237529875123752992512375299751237530025123753007512375306751237530975123753102512375310751237531125123753117512375)))
 (.node 2 (.node 1 (.leaf 3122512375312751237531325123753137512375314251237531475123753152512375315751237531625123750602512325060751232506125123250617512325062251232506275123250632512325063751232506425123250647512325065251232506575123250662512325066751232506725123250677512325068251232506875123250692512325069751232507025123250707512325071251232507175123250722512325072751232507325123250737512325074251232507475123250752512325075751232507625123250767512325077251232507775123250782512325078751232507925123250797512325080251232508075123250812512325081751232508225123250827512325083251232508375123250842512325084751232508525123250857512325086251232508675123250872512325)
 (.leaf 877512325088251232508875123250892512325089751232509025123250907512325091251232509175123250922512325092751232509325123250937512325094251232509475123250952512325095751232509625123250967512325097251232509775123250982512325098751232509925123250997512325100251232510075123251637512325171251232517175123251722512325172751232517325123251737512325174251232517475123251752512325175751232517625123251767512325177251232517775123251782512325178751232517925123251797512325180251232518075123251812512325181751232518225123251827512325183251232518375123251842512325184751232518525123251857512325186251232518675123251872512325187751232518825123251887512325))
 (.node 1 (.leaf 1892512325189751232519025123251907512325191251232519175123252152512325215751232521625123252167512325217251232521775123252182512325218751232521925123252197512325220251232522075123252212512325221751232522225123252227512325223251232522375123252242512325224751232522525123252257512325226251232522675123252272512325227751232522825123252287512325229251232522975123252302512325230751232523125123252317512325232251232523275123252332512325233751232523425123252347512325235251232523575123252362512325236751232523725123252377512325238251232523875123252392512325239751232524025123252407512325241251232524175123252422512325242751232524325123252437512325)
 (.leaf 2442512325244751232524525123252457512325246251232524675123252472512325247751232524825123252487512325249251232524975123252502512325250751232525125123252517512325252251232525275123252532512325253751232525425123252547512325255251232525575123252562512325256751232525725123252577512325258251232525875123252592512325259751232526025123252607512325261251232526175123252622512325262751232526325123252637512325264251232526475123252652512325265751232526625123252667512325267251232526775123252682512325268751232526925123252697512325270251232527075123252712512325271751232527225123252727512325273251232527375123252742512325274751232527525123252757512325))))
 (.node 4 (.node 2 (.node 1 (.leaf 2762512325276751232527725123252777512325278251232527875123252792512325279751232528025123252807512325281251232528175123252822512325282751232528325123252837512325284251232528475123252852512325285751232528625123252867512325287251232528775123252882512325288751232528925123252897512325290251232529075123252912512325291751232529225123252927512325293251232529375123252942512325294751232529525123252957512325296251232529675123252972512325297751232529825123252987512325299251232529975123253002512325300751232530625123253067512325309251232530975123253102512325310751232531125123253117512325312251232531275123253132512325313751232531425123253157512325)
 (.leaf 3197512325061251227506175122750627512275063251227506375122750642512275064751227506525122750657512275066251227506675122750672512275067751227506825122750687512275069251227506975122750702512275070751227507125122750717512275072251227507275122750732512275073751227507425122750747512275075251227507575122750762512275076751227507725122750777512275078251227507875122750792512275079751227508025122750807512275081251227508175122750822512275082751227508325122750837512275084251227508475122750852512275085751227508625122750867512275087251227508775122750882512275088751227508925122750897512275090251227509075122750912512275091751227509225122750927512275))
 (.node 1 (.leaf 932512275093751227509425122750947512275095251227509575122750962512275096751227509725122750977512275098251227509875122750992512275099751227510025122751627512275163251227517075122751712512275171751227517225122751727512275173251227517375122751742512275174751227517525122751757512275176251227517675122751772512275177751227517825122751787512275179251227517975122751802512275180751227518125122751817512275182251227518275122751832512275183751227518425122751847512275185251227518575122751862512275186751227518725122751877512275188251227518875122751892512275189751227519025122751907512275191251227519175122751922512275192751227519325122751937512275)
 (.leaf 1942512275200751227520125122752017512275202251227520275122752032512275214751227521525122752157512275216251227521675122752172512275217751227521825122752187512275219251227521975122752202512275220751227522125122752217512275222251227522275122752232512275223751227522425122752247512275225251227522575122752262512275226751227522725122752277512275228251227522875122752292512275229751227523025122752307512275231251227523175122752322512275232751227523325122752337512275234251227523475122752352512275235751227523625122752367512275237251227523775122752382512275238751227523925122752397512275240251227524075122752412512275241751227524225122752427512275)))
 (.node 2 (.node 1 (.leaf 2432512275243751227524425122752447512275245251227524575122752462512275246751227524725122752477512275248251227524875122752492512275249751227525025122752507512275251251227525175122752522512275252751227525325122752537512275254251227525475122752552512275255751227525625122752567512275257251227525775122752582512275258751227525925122752597512275260251227526075122752612512275261751227526225122752627512275263251227526375122752642512275264751227526525122752657512275266251227526675122752672512275267751227526825122752687512275269251227526975122752702512275270751227527125122752717512275272251227527275122752732512275273751227527425122752747512275)
 (.leaf 2752512275275751227527625122752767512275277251227527775122752782512275278751227527925122752797512275280251227528075122752812512275281751227528225122752827512275283251227528375122752842512275284751227528525122752857512275286251227528675122752872512275287751227528825122752887512275289251227528975122752902512275290751227529125122752917512275292251227529275122752932512275293751227529425122752947512275295251227529575122752962512275296751227529725122752977512275298251227529875122752992512275299751227530025122753007512275308751227530925122753097512275310251227531075122753112512275311751227531225122753127512275313251227506275122250632512225))
 (.node 1 (.leaf 637512225064251222506475122250652512225065751222506625122250667512225067251222506775122250682512225068751222506925122250697512225070251222507075122250712512225071751222507225122250727512225073251222507375122250742512225074751222507525122250757512225076251222507675122250772512225077751222507825122250787512225079251222507975122250802512225080751222508125122250817512225082251222508275122250832512225083751222508425122250847512225085251222508575122250862512225086751222508725122250877512225088251222508875122250892512225089751222509025122250907512225091251222509175122250922512225092751222509325122250937512225094251222509475122250952512225)
 (.leaf 957512225096251222509675122250972512225097751222509825122250987512225099251222509975122251152512225170751222517125122251717512225172251222517275122251732512225173751222517425122251747512225175251222517575122251762512225176751222517725122251777512225178251222517875122251792512225179751222518025122251807512225181251222518175122251822512225182751222518325122251837512225184251222518475122251852512225185751222518625122251867512225187251222518775122251882512225188751222518925122251897512225190251222519075122251912512225191751222519225122251927512225193251222519375122251942512225194751222519525122251997512225200251222520075122252012512225))))))
 (.node 16 (.node 8 (.node 4 (.node 2 (.node 1 (.leaf 2017512225202251222520275122252032512225203751222520425122252047512225214251222521475122252152512225215751222521625122252167512225217251222521775122252182512225218751222521925122252197512225220251222522075122252212512225221751222522225122252227512225223251222522375122252242512225224751222522525122252257512225226251222522675122252272512225227751222522825122252287512225229251222522975122252302512225230751222523125122252317512225232251222523275122252332512225233751222523425122252347512225235251222523575122252362512225236751222523725122252377512225238251222523875122252392512225239751222524025122252407512225241251222524175122252422512225)
 (.leaf 2427512225243251222524375122252442512225244751222524525122252457512225246251222524675122252472512225247751222524825122252487512225249251222524975122252502512225250751222525125122252517512225252251222525275122252532512225253751222525425122252547512225255251222525575122252562512225256751222525725122252577512225258251222525875122252592512225259751222526025122252607512225261251222526175122252622512225262751222526325122252637512225264251222526475122252652512225265751222526625122252667512225267251222526775122252682512225268751222526925122252697512225270251222527075122252712512225271751222527225122252727512225273251222527375122252742512225))
 (.node 1 (.leaf 2747512225275251222527575122252762512225276751222527725122252777512225278251222527875122252792512225279751222528025122252807512225281251222528175122252822512225282751222528325122252837512225284251222528475122252852512225285751222528625122252867512225287251222528775122252882512225288751222528925122252897512225290251222529075122252912512225291751222529225122252927512225293251222529375122252942512225294751222529525122252957512225296251222529675122252972512225297751222529825122252987512225299251222529975122253002512225300751222530125122253017512225310251222531075122253112512225311751222506325121750637512175064251217506475121750652512175)
 (.leaf 657512175066251217506675121750672512175067751217506825121750687512175069251217506975121750702512175070751217507125121750717512175072251217507275121750732512175073751217507425121750747512175075251217507575121750762512175076751217507725121750777512175078251217507875121750792512175079751217508025121750807512175081251217508175121750822512175082751217508325121750837512175084251217508475121750852512175085751217508625121750867512175087251217508775121750882512175088751217508925121750897512175090251217509075121750912512175091751217509225121750927512175093251217509375121750942512175094751217509525121750957512175096251217509675121750972512175)))
 (.node 2 (.node 1 (.leaf 977512175098251217509875121751702512175170751217517125121751717512175172251217517275121751732512175173751217517425121751747512175175251217517575121751762512175176751217517725121751777512175178251217517875121751792512175179751217518025121751807512175181251217518175121751822512175182751217518325121751837512175184251217518475121751852512175185751217518625121751867512175187251217518775121751882512175188751217518925121751897512175190251217519075121751912512175191751217519225121751927512175193251217519375121751942512175194751217519525121751997512175200251217520075121752012512175201751217520225121752027512175203251217520375121752042512175)
 (.leaf 2047512175205251217520575121752062512175211251217521425121752147512175215251217521575121752162512175216751217521725121752177512175218251217521875121752192512175219751217522025121752207512175221251217522175121752222512175222751217522325121752237512175224251217522475121752252512175225751217522625121752267512175227251217522775121752282512175228751217522925121752297512175230251217523075121752312512175231751217523225121752327512175233251217523375121752342512175234751217523525121752357512175236251217523675121752372512175237751217523825121752387512175239251217523975121752402512175240751217524125121752417512175242251217524275121752432512175))
 (.node 1 (.leaf 2437512175244251217524475121752452512175245751217524625121752467512175247251217524775121752482512175248751217524925121752497512175250251217525075121752512512175251751217525225121752527512175253251217525375121752542512175254751217525525121752557512175256251217525675121752572512175257751217525825121752587512175259251217525975121752602512175260751217526125121752617512175262251217526275121752632512175263751217526425121752647512175265251217526575121752662512175266751217526725121752677512175268251217526875121752692512175269751217527025121752707512175271251217527175121752722512175272751217527325121752737512175274251217527475121752752512175)
 (.leaf 2757512175276251217527675121752772512175277751217527825121752787512175279251217527975121752802512175280751217528125121752817512175282251217528275121752832512175283751217528425121752847512175285251217528575121752862512175286751217528725121752877512175288251217528875121752892512175289751217529025121752907512175291251217529175121752922512175292751217529325121752937512175294251217529475121752952512175295751217529625121752967512175297251217529775121752982512175298751217529925121752997512175300251217530075121753012512175301751217531025121753107512175311251217506325121250637512125064251212506475121250652512125066251212506675121250672512125))))
 (.node 4 (.node 2 (.node 1 (.leaf 677512125068251212506875121250692512125069751212507025121250707512125071251212507175121250722512125072751212507325121250737512125074251212507475121250752512125075751212507625121250767512125077251212507775121250782512125078751212507925121250797512125080251212508075121250812512125081751212508225121250827512125083251212508375121250842512125084751212508525121250857512125086251212508675121250872512125087751212508825121250887512125089251212508975121250902512125090751212509125121250917512125092251212509275121250932512125093751212509425121250947512125095251212509575121250962512125096751212509725121250977512125098251212509875121251702512125)
 (.leaf 1707512125171251212517175121251722512125172751212517325121251737512125174251212517475121251752512125175751212517625121251767512125177251212517775121251782512125178751212517925121251797512125180251212518075121251812512125181751212518225121251827512125183251212518375121251842512125184751212518525121251857512125186251212518675121251872512125187751212518825121251887512125189251212518975121251902512125190751212519125121251917512125192251212519275121251932512125193751212519425121251947512125195251212519575121251962512125196751212519725121252002512125200751212520125121252017512125202251212520275121252032512125203751212520425121252047512125))
 (.node 1 (.leaf 2052512125205751212520625121252067512125207251212520775121252082512125208751212520975121252102512125210751212521125121252117512125212251212521275121252132512125213751212521425121252147512125215251212521575121252162512125216751212521725121252177512125218251212521875121252192512125219751212522025121252207512125221251212522175121252222512125222751212522325121252237512125224251212522475121252252512125225751212522625121252267512125227251212522775121252282512125228751212522925121252297512125230251212523075121252312512125231751212523225121252327512125233251212523375121252342512125234751212523525121252357512125236251212523675121252372512125)
 (.leaf 2377512125238251212523875121252392512125239751212524025121252407512125241251212524175121252422512125242751212524325121252437512125244251212524475121252452512125245751212524625121252467512125247251212524775121252482512125248751212524925121252497512125250251212525075121252512512125251751212525225121252527512125253251212525375121252542512125254751212525525121252557512125256251212525675121252572512125257751212525825121252587512125259251212525975121252602512125260751212526125121252617512125262251212526275121252632512125263751212526425121252647512125265251212526575121252662512125266751212526725121252677512125268251212526875121252692512125)))
 (.node 2 (.node 1 (.leaf 2697512125270251212527075121252712512125271751212527225121252727512125273251212527375121252742512125274751212527525121252757512125276251212527675121252772512125277751212527825121252787512125279251212527975121252802512125280751212528125121252817512125282251212528275121252832512125283751212528425121252847512125285251212528575121252862512125286751212528725121252877512125288251212528875121252892512125289751212529025121252907512125291251212529175121252922512125292751212529325121252937512125294251212529475121252952512125295751212529625121252967512125297251212529775121252982512125298751212529925121252997512125300251212530075121253012512125)
 (.leaf 3017512125310251212531075121253112512125063751207506425120750647512075065251207506675120750672512075067751207506825120750687512075069251207506975120750702512075070751207507125120750717512075072251207507275120750732512075073751207507425120750747512075075251207507575120750762512075076751207507725120750777512075078251207507875120750792512075079751207508025120750807512075081251207508175120750822512075082751207508325120750837512075084251207508475120750852512075085751207508625120750867512075087251207508775120750882512075088751207508925120750897512075090251207509075120750912512075091751207509225120750927512075093251207509375120750942512075))
 (.node 1 (.leaf 947512075095251207509575120750962512075096751207509725120750977512075098251207509875120751702512075170751207517125120751717512075172251207517275120751732512075173751207517425120751747512075175251207517575120751762512075176751207517725120751777512075178251207517875120751792512075179751207518025120751807512075181251207518175120751822512075182751207518325120751837512075184251207518475120751852512075185751207518625120751867512075187251207518775120751882512075188751207518925120751897512075190251207519075120751912512075191751207519225120751927512075193251207519375120751942512075194751207519525120751957512075196251207519675120751972512075)
 (.leaf 1977512075198251207519875120751997512075200251207520075120752012512075201751207520225120752027512075203251207520375120752042512075204751207520525120752057512075206251207520675120752072512075207751207520825120752087512075209251207520975120752102512075210751207521125120752117512075212251207521275120752132512075213751207521425120752147512075215251207521575120752162512075216751207521725120752177512075218251207521875120752192512075219751207522025120752207512075221251207522175120752222512075222751207522325120752237512075224251207522475120752252512075225751207522625120752267512075227251207522775120752282512075228751207522925120752297512075)))))
 (.node 8 (.node 4 (.node 2 (.node 1 (.leaf 2302512075230751207523125120752317512075232251207523275120752332512075233751207523425120752347512075235251207523575120752362512075236751207523725120752377512075238251207523875120752392512075239751207524025120752407512075241251207524175120752422512075242751207524325120752437512075244251207524475120752452512075245751207524625120752467512075247251207524775120752482512075248751207524925120752497512075250251207525075120752512512075251751207525225120752527512075253251207525375120752542512075254751207525525120752557512075256251207525675120752572512075257751207525825120752587512075259251207525975120752602512075260751207526125120752617512075)
 (.leaf 2622512075262751207526325120752637512075264251207526475120752652512075265751207526625120752667512075267251207526775120752682512075268751207526925120752697512075270251207527075120752712512075271751207527225120752727512075273251207527375120752742512075274751207527525120752757512075276251207527675120752772512075277751207527825120752787512075279251207527975120752802512075280751207528125120752817512075282251207528275120752832512075283751207528425120752847512075285251207528575120752862512075286751207528725120752877512075288251207528875120752892512075289751207529025120752907512075291251207529175120752922512075292751207529325120752937512075))
 (.node 1 (.leaf 2942512075294751207529525120752957512075296251207529675120752972512075297751207529825120752987512075299251207529975120753002512075300751207530125120753017512075302251207530275120753102512075310751207531125120753202512075063751202506425120250647512025065251202506575120250672512025067751202506825120250687512025069251202506975120250702512025070751202507125120250717512025072251202507275120250732512025073751202507425120250747512025075251202507575120250762512025076751202507725120250777512025078251202507875120250792512025079751202508025120250807512025081251202508175120250822512025082751202508325120250837512025084251202508475120250852512025)
 (.leaf 857512025086251202508675120250872512025087751202508825120250887512025089251202508975120250902512025090751202509125120250917512025092251202509275120250932512025093751202509425120250947512025095251202509575120250962512025096751202509725120250977512025098251202509875120251702512025170751202517125120251717512025172251202517275120251732512025173751202517425120251747512025175251202517575120251762512025176751202517725120251777512025178251202517875120251792512025179751202518025120251807512025181251202518175120251822512025182751202518325120251837512025184251202518475120251852512025185751202518625120251867512025187251202518775120251882512025)))
 (.node 2 (.node 1 (.leaf 1887512025189251202518975120251902512025190751202519125120251917512025192251202519275120251932512025193751202519425120251947512025195251202519575120251962512025196751202519725120251977512025198251202519875120251992512025199751202520025120252007512025201251202520175120252022512025202751202520325120252037512025204251202520475120252052512025205751202520625120252067512025207251202520775120252082512025208751202520925120252097512025210251202521075120252112512025211751202521225120252127512025213251202521375120252142512025214751202521525120252157512025216251202521675120252172512025217751202521825120252187512025219251202521975120252202512025)
 (.leaf 2207512025221251202522175120252222512025222751202522325120252237512025224251202522475120252252512025225751202522625120252267512025227251202522775120252282512025228751202522925120252297512025230251202523075120252312512025231751202523225120252327512025233251202523375120252342512025234751202523525120252357512025236251202523675120252372512025237751202523825120252387512025239251202523975120252402512025240751202524125120252417512025242251202524275120252432512025243751202524425120252447512025245251202524575120252462512025246751202524725120252477512025248251202524875120252492512025249751202525025120252507512025251251202525175120252522512025))
 (.node 1 (.leaf 2527512025253251202525375120252542512025254751202525525120252557512025256251202525675120252572512025257751202525825120252587512025259251202525975120252602512025260751202526125120252617512025262251202526275120252632512025263751202526425120252647512025265251202526575120252662512025266751202526725120252677512025268251202526875120252692512025269751202527025120252707512025271251202527175120252722512025272751202527325120252737512025274251202527475120252752512025275751202527625120252767512025277251202527775120252782512025278751202527925120252797512025280251202528075120252812512025281751202528225120252827512025283251202528375120252842512025)
 (.leaf 2847512025285251202528575120252862512025286751202528725120252877512025288251202528875120252892512025289751202529025120252907512025291251202529175120252922512025292751202529325120252937512025294251202529475120252952512025295751202529625120252967512025297251202529775120252982512025298751202529925120252997512025300251202530075120253012512025301751202530225120253027512025310251202531075120253202512025064251197506475119750652511975065751197506625119750672511975067751197506825119750687511975069251197506975119750702511975070751197507125119750717511975072251197507275119750732511975073751197507425119750747511975075251197507575119750762511975))))
 (.node 4 (.node 2 (.node 1 (.leaf 767511975077251197507775119750782511975078751197507925119750797511975080251197508075119750812511975081751197508225119750827511975083251197508375119750842511975084751197508525119750857511975086251197508675119750872511975087751197508825119750887511975089251197508975119750902511975090751197509475119750952511975095751197509625119750967511975097251197509775119750982511975098751197516975119751702511975170751197517125119751717511975172251197517275119751732511975173751197517425119751747511975175251197517575119751762511975176751197517725119751777511975178251197517875119751792511975179751197518025119751807511975181251197518175119751822511975)
 (.leaf 1827511975183251197518375119751842511975184751197518525119751857511975186251197518675119751872511975187751197518825119751887511975189251197518975119751902511975190751197519125119751917511975192251197519275119751932511975193751197519425119751947511975195251197519575119751962511975196751197519725119751977511975198251197519875119751992511975199751197520025119752007511975201251197520175119752022511975202751197520325119752037511975204251197520475119752052511975205751197520625119752067511975207251197520775119752082511975208751197520925119752097511975210251197521075119752112511975211751197521225119752127511975213251197521375119752142511975))
 (.node 1 (.leaf 2147511975215251197521575119752162511975216751197521725119752177511975218251197521875119752192511975219751197522025119752207511975221251197522175119752222511975222751197522325119752237511975224251197522475119752252511975225751197522625119752267511975227251197522775119752282511975228751197523025119752307511975231251197523175119752322511975232751197523325119752337511975234251197523475119752352511975235751197523625119752367511975237251197523775119752382511975238751197523925119752397511975240251197524075119752412511975241751197524225119752427511975243251197524375119752442511975244751197524525119752457511975246251197524675119752472511975)
 (.leaf 2477511975248251197524875119752492511975249751197525025119752507511975251251197525175119752522511975252751197525325119752537511975254251197525475119752552511975255751197525625119752567511975257251197525775119752582511975258751197525925119752597511975260251197526075119752612511975261751197526225119752627511975263251197526375119752642511975264751197526525119752657511975266251197526675119752672511975267751197526825119752687511975269251197526975119752702511975270751197527125119752717511975272251197527275119752732511975273751197527425119752747511975275251197527575119752762511975276751197527725119752777511975278251197527875119752792511975)))
 (.node 2 (.node 1 (.leaf 2797511975280251197528075119752812511975281751197528225119752827511975283251197528375119752842511975284751197528525119752857511975286251197528675119752872511975287751197528825119752887511975289251197528975119752902511975290751197529125119752917511975292251197529275119752932511975293751197529425119752947511975295251197529575119752962511975296751197529725119752977511975298251197529875119752992511975299751197530025119753007511975301251197530175119753022511975061751192506475119250652511925065751192506625119250667511925067751192506825119250687511925069251192506975119250702511925070751192507125119250717511925072251192507275119250732511925)
 (.leaf 737511925074251192507475119250752511925075751192507625119250767511925077251192507775119250782511925078751192507925119250797511925080251192508075119250812511925081751192508225119250827511925083251192508375119250842511925084751192508525119250887511925089251192508975119250902511925090751192509675119250972511925097751192509825119250987511925099251192516625119251697511925170251192517075119251712511925171751192517225119251727511925173251192517375119251742511925174751192517525119251757511925176251192517675119251772511925177751192517825119251787511925179251192517975119251802511925180751192518125119251817511925182251192518275119251832511925))
 (.node 1 (.leaf 1837511925184251192518475119251852511925185751192518625119251867511925187251192518775119251882511925188751192518925119251897511925190251192519075119251912511925191751192519225119251927511925193251192519375119251942511925194751192519525119251957511925196251192519675119251972511925197751192519825119251987511925199251192519975119252002511925200751192520125119252017511925202251192520275119252032511925203751192520425119252047511925205251192520575119252062511925206751192520725119252077511925208251192520875119252092511925209751192521025119252107511925211251192521175119252122511925212751192521325119252137511925214251192521475119252152511925)
 (.leaf 2157511925216251192521675119252172511925217751192521825119252187511925219251192521975119252202511925220751192522125119252217511925222251192522275119252232511925223751192522425119252247511925225251192522575119252262511925226751192522725119252277511925228251192523075119252312511925231751192523225119252327511925233251192523375119252342511925234751192523525119252357511925236251192523675119252372511925237751192523825119252387511925239251192523975119252402511925240751192524125119252417511925242251192524275119252432511925243751192524425119252447511925245251192524575119252462511925246751192524725119252477511925248251192524875119252492511925))))))))
 (.node 64 (.node 32 (.node 16 (.node 8 (.node 4 (.node 2 (.node 1 (.leaf 2497511925250251192525075119252512511925251751192525225119252527511925253251192525375119252542511925254751192525525119252557511925256251192525675119252572511925257751192525825119252587511925259251192525975119252602511925260751192526125119252617511925262251192526275119252632511925263751192526425119252647511925265251192526575119252662511925266751192526725119252677511925268251192526875119252692511925269751192527025119252707511925271251192527175119252722511925272751192527325119252737511925274251192527475119252752511925275751192527625119252767511925277251192527775119252782511925278751192527925119252797511925280251192528075119252812511925)
 (.leaf 2817511925282251192528275119252832511925283751192528425119252847511925285251192528575119252862511925286751192528725119252877511925288251192528875119252892511925289751192529025119252907511925291251192529175119252922511925292751192529325119252937511925294251192529475119252952511925295751192529625119252967511925297251192529775119252982511925298751192529925119252997511925300251192530075119253012511925301751192531475119253152511925065251187506575118750662511875066751187506725118750677511875068251187506875118750692511875069751187507025118750707511875071251187507175118750722511875072751187507325118750737511875074251187507475118750752511875))
 (.node 1 (.leaf 757511875076251187507675118750772511875077751187507825118750787511875079251187507975118750802511875080751187508125118750817511875082251187508275118750832511875083751187508425118750847511875097251187509775118750982511875098751187509925118751622511875163751187516575118751662511875168751187516925118751697511875170251187517075118751712511875171751187517225118751727511875173251187517375118751742511875174751187517525118751757511875176251187517675118751772511875177751187517825118751787511875179251187517975118751802511875180751187518125118751817511875182251187518275118751832511875183751187518425118751847511875185251187518575118751862511875)
 (.leaf 1867511875187251187518775118751882511875188751187518925118751897511875190251187519075118751912511875191751187519225118751927511875193251187519375118751942511875194751187519525118751957511875196251187519675118751972511875197751187519825118751987511875199251187519975118752002511875200751187520125118752017511875202251187520275118752032511875203751187520425118752047511875205251187520575118752062511875206751187520725118752077511875208251187520875118752092511875209751187521025118752107511875211251187521175118752122511875212751187521325118752137511875214251187521475118752152511875215751187521625118752167511875217251187521775118752182511875)))
 (.node 2 (.node 1 (.leaf 2187511875219251187521975118752202511875220751187522125118752217511875222251187522275118752232511875223751187522425118752247511875225251187522575118752262511875226751187522725118752277511875228251187523075118752312511875231751187523225118752327511875233251187523375118752342511875234751187523525118752357511875236251187523675118752372511875237751187523825118752387511875239251187523975118752402511875240751187524125118752417511875242251187524275118752432511875243751187524425118752447511875245251187524575118752462511875246751187524725118752477511875248251187524875118752492511875249751187525025118752507511875251251187525175118752522511875)
 (.leaf 2527511875253251187525375118752542511875254751187525525118752557511875256251187525675118752572511875257751187525825118752587511875259251187525975118752602511875260751187526125118752617511875262251187526275118752632511875263751187526425118752647511875265251187526575118752662511875266751187526725118752677511875268251187526875118752692511875269751187527025118752707511875271251187527175118752722511875272751187527325118752737511875274251187527475118752752511875275751187527625118752767511875277251187527775118752782511875278751187527925118752797511875280251187528075118752812511875281751187528225118752827511875283251187528375118752842511875))
 (.node 1 (.leaf 2847511875285251187528575118752862511875286751187528725118752877511875288251187528875118752892511875289751187529025118752907511875291251187529175118752922511875292751187529325118752937511875294251187529475118752952511875295751187529625118752967511875297251187529775118752982511875298751187529925118752997511875300251187530075118753012511875301751187531475118753152511875002751182506425118250647511825065751182506625118250667511825067251182506825118250687511825069251182506975118250702511825070751182507125118250717511825072251182507275118250732511825073751182507425118250747511825075251182507575118250762511825076751182507725118250777511825)
 (.leaf 782511825078751182507925118250797511825080251182508075118250812511825081751182508225118250827511825083251182508375118250972511825097751182509825118250987511825099251182516225118251627511825163251182516375118251642511825164751182516575118251662511825167751182516825118251687511825169251182516975118251702511825170751182517125118251717511825172251182517275118251732511825173751182517425118251747511825175251182517575118251762511825176751182517725118251777511825178251182517875118251792511825179751182518025118251807511825181251182518175118251822511825182751182518325118251837511825184251182518475118251852511825185751182518625118251867511825))))
 (.node 4 (.node 2 (.node 1 (.leaf 1872511825187751182518825118251887511825189251182518975118251902511825190751182519125118251917511825192251182519275118251932511825193751182519425118251947511825195251182519575118251962511825196751182519725118251977511825198251182519875118251992511825199751182520025118252007511825201251182520175118252022511825202751182520325118252037511825204251182520475118252052511825205751182520625118252067511825207251182520775118252082511825208751182520925118252097511825210251182521075118252112511825211751182521225118252127511825213251182521375118252142511825214751182521525118252157511825216251182521675118252172511825217751182521825118252187511825)
 (.leaf 2192511825219751182522025118252207511825221251182522175118252222511825222751182522325118252237511825224251182522475118252252511825225751182522625118252267511825227251182522775118252282511825228751182523125118252317511825232251182523275118252332511825233751182523425118252347511825235251182523575118252362511825236751182523725118252377511825238251182523875118252392511825239751182524025118252407511825241251182524175118252422511825242751182524325118252437511825244251182524475118252452511825245751182524625118252467511825247251182524775118252482511825248751182524925118252497511825250251182525075118252512511825251751182525225118252527511825))
 (.node 1 (.leaf 2532511825253751182525425118252547511825255251182525575118252562511825256751182525725118252577511825258251182525875118252592511825259751182526025118252607511825261251182526175118252622511825262751182526325118252637511825264251182526475118252652511825265751182526625118252667511825267251182526775118252682511825268751182526925118252697511825270251182527075118252712511825271751182527225118252727511825273251182527375118252742511825274751182527525118252757511825276251182527675118252772511825277751182527825118252787511825279251182527975118252802511825280751182528125118252817511825282251182528275118252832511825283751182528425118252847511825)
 (.leaf 2852511825285751182528625118252867511825287251182528775118252882511825288751182528925118252897511825290251182529075118252912511825291751182529225118252927511825293251182529375118252942511825294751182529525118252957511825296251182529675118252972511825297751182529825118252987511825299251182529975118253002511825300751182530125118253092511825309751182506475117750652511775065751177506625117750667511775067251177506775117750687511775069251177506975117750702511775070751177507125117750717511775072251177507275117750732511775073751177507425117750747511775075251177507575117750762511775076751177507725117750777511775078251177507875117750792511775)))
 (.node 2 (.node 1 (.leaf 797511775080251177508075117750812511775081751177508225117750827511775097251177509775117750982511775098751177509925117750997511775161751177516225117751642511775164751177516675117751672511775167751177516825117751687511775169251177516975117751702511775170751177517125117751717511775172251177517275117751732511775173751177517425117751747511775175251177517575117751762511775176751177517725117751777511775178251177517875117751792511775179751177518025117751807511775181251177518175117751822511775182751177518325117751837511775184251177518475117751852511775185751177518625117751867511775187251177518775117751882511775188751177518925117751897511775)
 (.leaf 1902511775190751177519125117751917511775192251177519275117751932511775193751177519425117751947511775195251177519575117751962511775196751177519725117751977511775198251177519875117751992511775199751177520025117752007511775201251177520175117752022511775202751177520325117752037511775204251177520475117752052511775205751177520625117752067511775207251177520775117752082511775208751177520925117752097511775210251177521075117752112511775211751177521225117752127511775213251177521375117752142511775215251177521575117752162511775216751177521725117752177511775218251177521875117752192511775219751177522025117752207511775221251177522175117752222511775))
 (.node 1 (.leaf 2227511775223251177522375117752242511775224751177522525117752257511775226251177522675117752272511775227751177522825117752287511775231751177523225117752327511775233251177523375117752342511775234751177523525117752357511775236251177523675117752372511775237751177523825117752387511775239251177523975117752402511775240751177524125117752417511775242251177524275117752432511775243751177524425117752447511775245251177524575117752462511775246751177524725117752477511775248251177524875117752492511775249751177525025117752507511775251251177525175117752522511775252751177525325117752537511775254251177525475117752552511775255751177525625117752567511775)
 (.leaf 2572511775257751177525825117752587511775259251177525975117752602511775260751177526125117752617511775262251177526275117752632511775263751177526425117752647511775265251177526575117752662511775266751177526725117752677511775268251177526875117752692511775269751177527025117752707511775271251177527175117752722511775272751177527325117752737511775274251177527475117752752511775275751177527625117752767511775277251177527775117752782511775278751177527925117752797511775280251177528075117752812511775281751177528225117752827511775283251177528375117752842511775284751177528525117752857511775286251177528675117752872511775287751177528825117752887511775)))))
 (.node 8 (.node 4 (.node 2 (.node 1 (.leaf 2892511775289751177529025117752907511775291251177529175117752922511775292751177529325117752937511775294251177529475117752952511775295751177529625117752967511775297251177529775117752982511775298751177529925117752997511775300251177530075117753087511775065251172506575117250662511725066751172506725117250677511725069251172506975117250702511725070751172507125117250717511725072251172507275117250732511725073751172507425117250747511725075251172507575117250762511725076751172507725117250777511725078251172507875117250792511725079751172508025117250807511725081251172508175117250822511725082751172509725117250977511725098251172509875117250992511725)
 (.leaf 997511725166751172516725117251677511725168251172516875117251692511725169751172517025117251707511725171251172517175117251722511725172751172517325117251737511725174251172517475117251752511725175751172517625117251767511725177251172517775117251782511725178751172517925117251797511725180251172518075117251812511725181751172518225117251827511725183251172518375117251842511725184751172518525117251857511725186251172518675117251872511725187751172518825117251887511725189251172518975117251902511725190751172519125117251917511725192251172519275117251932511725193751172519425117251947511725195251172519575117251962511725196751172519725117251977511725))
 (.node 1 (.leaf 1982511725198751172519925117251997511725200251172520075117252012511725201751172520225117252027511725203251172520375117252042511725204751172520525117252057511725206251172520675117252072511725207751172520825117252087511725209251172520975117252102511725210751172521125117252117511725212251172521275117252132511725213751172521575117252162511725216751172521725117252177511725218251172521875117252192511725219751172522025117252207511725221251172522175117252222511725222751172522325117252237511725224251172522475117252252511725225751172522625117252267511725227251172522775117252282511725228751172522925117252297511725232751172523325117252337511725)
 (.leaf 2342511725234751172523525117252357511725236251172523675117252372511725237751172523825117252387511725239251172523975117252402511725240751172524125117252417511725242251172524275117252432511725243751172524425117252447511725245251172524575117252462511725246751172524725117252477511725248251172524875117252492511725249751172525025117252507511725251251172525175117252522511725252751172525325117252537511725254251172525475117252552511725255751172525625117252567511725257251172525775117252582511725258751172525925117252597511725260251172526075117252612511725261751172526225117252627511725263251172526375117252642511725264751172526525117252657511725)))
 (.node 2 (.node 1 (.leaf 2662511725266751172526725117252677511725268251172526875117252692511725269751172527025117252707511725271251172527175117252722511725272751172527325117252737511725274251172527475117252752511725275751172527625117252767511725277251172527775117252782511725278751172527925117252797511725280251172528075117252812511725281751172528225117252827511725283251172528375117252842511725284751172528525117252857511725286251172528675117252872511725287751172528825117252887511725289251172528975117252902511725290751172529125117252917511725292251172529275117252932511725293751172529425117252947511725295251172529575117252962511725296751172529725117252977511725)
 (.leaf 2982511725298751172529925117252997511725300251172530075117253222511725066251167506675116750672511675067751167506825116750702511675070751167507125116750717511675072251167507275116750732511675073751167507425116750747511675075251167507575116750762511675076751167507725116750777511675078251167507875116750792511675079751167508025116750807511675081251167508175116750822511675082751167509775116750982511675098751167509925116750997511675101251167510175116751022511675102751167516625116751667511675167251167516775116751682511675168751167516925116751697511675170251167517075116751712511675171751167517225116751727511675173251167517375116751742511675))
 (.node 1 (.leaf 1747511675175251167517575116751762511675176751167517725116751777511675178251167517875116751792511675179751167518025116751807511675181251167518175116751822511675182751167518325116751837511675184251167518475116751852511675185751167518625116751867511675187251167518775116751882511675188751167518925116751897511675190251167519075116751912511675191751167519225116751927511675193251167519375116751942511675194751167519525116751957511675196251167519675116751972511675197751167519825116751987511675199251167519975116752002511675200751167520125116752017511675202251167520275116752032511675203751167520425116752047511675205251167520575116752062511675)
 (.leaf 2067511675207251167520775116752082511675208751167520925116752097511675210251167521075116752112511675211751167521225116752127511675213251167521375116752157511675216251167521675116752172511675217751167521825116752187511675219251167521975116752202511675220751167522125116752217511675222251167522275116752232511675223751167522425116752247511675225251167522575116752262511675226751167522725116752277511675228251167522875116752292511675229751167523325116752337511675234251167523475116752352511675235751167523625116752367511675237251167523775116752382511675238751167523925116752397511675240251167524075116752412511675241751167524225116752427511675))))
 (.node 4 (.node 2 (.node 1 (.leaf 2432511675243751167524425116752447511675245251167524575116752462511675246751167524725116752477511675248251167524875116752492511675249751167525025116752507511675251251167525175116752522511675252751167525325116752537511675254251167525475116752552511675255751167525625116752567511675257251167525775116752582511675258751167525925116752597511675260251167526075116752612511675261751167526225116752627511675263251167526375116752642511675264751167526525116752657511675266251167526675116752672511675267751167526825116752687511675269251167526975116752702511675270751167527125116752717511675272251167527275116752732511675273751167527425116752747511675)
 (.leaf 2752511675275751167527625116752767511675277251167527775116752782511675278751167527925116752797511675280251167528075116752812511675281751167528225116752827511675283251167528375116752842511675284751167528525116752857511675286251167528675116752872511675287751167528825116752887511675289251167528975116752902511675290751167529125116752917511675292251167529275116752932511675293751167529425116752947511675295251167529575116752962511675296751167529725116752977511675298251167529875116752992511675299751167530025116753082511675067251162506775116250682511625068751162507075116250712511625071751162507225116250727511625073251162507375116250742511625))
 (.node 1 (.leaf 747511625075251162507575116250762511625076751162507725116250777511625078251162507875116250792511625079751162508025116250807511625081251162508175116250822511625082751162509775116250982511625098751162509925116250997511625102751162516575116251662511625166751162516725116251677511625168251162516875116251692511625169751162517025116251707511625171251162517175116251722511625172751162517325116251737511625174251162517475116251752511625175751162517625116251767511625177251162517775116251782511625178751162517925116251797511625180251162518075116251812511625181751162518225116251827511625183251162518375116251842511625184751162518525116251857511625)
 (.leaf 1862511625186751162518725116251877511625188251162518875116251892511625189751162519025116251907511625191251162519175116251922511625192751162519325116251937511625194251162519475116251952511625195751162519625116251967511625197251162519775116251982511625198751162519925116251997511625200251162520075116252012511625201751162520225116252027511625203251162520375116252042511625204751162520525116252057511625206251162520675116252072511625207751162520825116252087511625209251162520975116252102511625210751162521125116252117511625212251162521275116252132511625213751162521425116252162511625216751162521725116252177511625218251162521875116252192511625)))
 (.node 2 (.node 1 (.leaf 2197511625220251162522075116252212511625221751162522225116252227511625223251162522375116252242511625224751162522525116252257511625226251162522675116252272511625227751162522825116252287511625229251162522975116252302511625230751162523125116252362511625237251162523775116252382511625238751162523925116252397511625240251162524075116252412511625241751162524225116252427511625243251162524375116252442511625244751162524525116252457511625246251162524675116252472511625247751162524825116252487511625249251162524975116252502511625250751162525125116252517511625252251162525275116252532511625253751162525425116252547511625255251162525575116252562511625)
 (.leaf 2567511625257251162525775116252582511625258751162525925116252597511625260251162526075116252612511625261751162526225116252627511625263251162526375116252642511625264751162526525116252657511625266251162526675116252672511625267751162526825116252687511625269251162526975116252702511625270751162527125116252717511625272251162527275116252732511625273751162527425116252747511625275251162527575116252762511625276751162527725116252777511625278251162527875116252792511625279751162528025116252807511625281251162528175116252822511625282751162528325116252837511625284251162528475116252852511625285751162528625116252867511625287251162528775116252882511625))
 (.node 1 (.leaf 2887511625289251162528975116252902511625290751162529125116252917511625292251162529275116252932511625293751162529425116252947511625295251162529575116252962511625296751162529725116252977511625298251162529875116252992511625299751162530025116253077511625067751157506825115750687511575069251157507075115750712511575071751157507225115750727511575073251157507375115750742511575074751157507525115750757511575076251157507675115750772511575077751157507825115750787511575079251157507975115750802511575080751157508125115750817511575082251157508275115750982511575098751157509925115750997511575102751157510325115751652511575165751157516625115751667511575)
 (.leaf 1672511575167751157516825115751687511575169251157516975115751702511575170751157517125115751717511575172251157517275115751732511575173751157517425115751747511575175251157517575115751762511575176751157517725115751777511575178251157517875115751792511575179751157518025115751807511575181251157518175115751822511575182751157518325115751837511575184251157518475115751852511575185751157518625115751867511575187251157518775115751882511575188751157518925115751897511575190251157519075115751912511575191751157519225115751927511575193251157519375115751942511575194751157519525115751957511575196251157519675115751972511575197751157519825115751987511575))))))
 (.node 16 (.node 8 (.node 4 (.node 2 (.node 1 (.leaf 1992511575199751157520025115752007511575201251157520175115752022511575202751157520325115752037511575204251157520475115752052511575205751157520625115752067511575207251157520775115752082511575208751157520925115752097511575210251157521075115752112511575211751157521225115752127511575213251157521375115752142511575214751157521675115752172511575217751157521825115752187511575219251157521975115752202511575220751157522125115752217511575222251157522275115752232511575223751157522425115752247511575225251157522575115752262511575226751157522725115752277511575228251157522875115752292511575229751157523025115752307511575231251157523175115752357511575)
 (.leaf 2362511575237251157523775115752382511575238751157523925115752397511575240251157524075115752412511575241751157524225115752427511575243251157524375115752442511575244751157524525115752457511575246251157524675115752472511575247751157524825115752487511575249251157524975115752502511575250751157525125115752517511575252251157525275115752532511575253751157525425115752547511575255251157525575115752562511575256751157525725115752577511575258251157525875115752592511575259751157526025115752607511575261251157526175115752622511575262751157526325115752637511575264251157526475115752652511575265751157526625115752667511575267251157526775115752682511575))
 (.node 1 (.leaf 2687511575269251157526975115752702511575270751157527125115752717511575272251157527275115752732511575273751157527425115752747511575275251157527575115752762511575276751157527725115752777511575278251157527875115752792511575279751157528025115752807511575281251157528175115752822511575282751157528325115752837511575284251157528475115752852511575285751157528625115752867511575287251157528775115752882511575288751157528925115752897511575290251157529075115752912511575291751157529225115752927511575293251157529375115752942511575294751157529525115752957511575296251157529675115752972511575297751157529825115752987511575299251157529975115753002511575)
 (.leaf 3112511575067751152506825115250687511525069251152507075115250712511525071751152507225115250727511525073251152507375115250742511525074751152507525115250757511525076251152507675115250772511525077751152507825115250787511525079251152507975115250802511525080751152508125115250817511525082251152508275115250987511525099251152509975115251017511525102751152510325115251037511525165251152516575115251662511525166751152516725115251677511525168251152516875115251692511525169751152517025115251707511525171251152517175115251722511525172751152517325115251737511525174251152517475115251752511525175751152517625115251767511525177251152517775115251782511525)))
 (.node 2 (.node 1 (.leaf 1787511525179251152517975115251802511525180751152518125115251817511525182251152518275115251832511525183751152518425115251847511525185251152518575115251862511525186751152518725115251877511525188251152518875115251892511525189751152519025115251907511525191251152519175115251922511525192751152519325115251937511525194251152519475115251952511525195751152519625115251967511525197251152519775115251982511525198751152519925115251997511525200251152520075115252012511525201751152520225115252027511525203251152520375115252042511525204751152520525115252057511525206251152520675115252072511525207751152520825115252087511525209251152520975115252102511525)
 (.leaf 2107511525211251152521175115252122511525212751152521325115252137511525214251152521475115252172511525217751152521825115252187511525219251152521975115252202511525220751152522125115252217511525222251152522275115252232511525223751152522425115252247511525225251152522575115252262511525226751152522725115252277511525228251152522875115252292511525229751152523025115252307511525231251152523175115252352511525235751152523625115252392511525239751152524025115252407511525241251152524175115252422511525242751152524325115252437511525244251152524475115252452511525245751152524625115252467511525247251152524775115252482511525248751152524925115252497511525))
 (.node 1 (.leaf 2502511525250751152525125115252517511525252251152525275115252532511525253751152525425115252547511525255251152525575115252562511525256751152525725115252577511525258251152525875115252592511525259751152526025115252607511525261251152526175115252622511525262751152526325115252637511525264251152526475115252652511525265751152526625115252667511525267251152526775115252682511525268751152526925115252697511525270251152527075115252712511525271751152527225115252727511525273251152527375115252742511525274751152527525115252757511525276251152527675115252772511525277751152527825115252787511525279251152527975115252802511525280751152528125115252817511525)
 (.leaf 2822511525282751152528325115252837511525284251152528475115252852511525285751152528625115252867511525287251152528775115252882511525288751152528925115252897511525290251152529075115252912511525291751152529225115252927511525293251152529375115252942511525294751152529525115252957511525296251152529675115252972511525297751152529825115252987511525299251152529975115253012511525301751152506775114750682511475068751147506925114750697511475071751147507225114750727511475073251147507375114750742511475074751147507525114750757511475076251147507675114750772511475077751147507825114750787511475079251147507975114750802511475080751147508125114750817511475))))
 (.node 4 (.node 2 (.node 1 (.leaf 822511475098251147509875114751017511475102251147510375114751652511475165751147516625114751667511475167251147516775114751682511475168751147516925114751697511475170251147517075114751712511475171751147517225114751727511475173251147517375114751742511475174751147517525114751757511475176251147517675114751772511475177751147517825114751787511475179251147517975114751802511475180751147518125114751817511475182251147518275114751832511475183751147518425114751847511475185251147518575114751862511475186751147518725114751877511475188251147518875114751892511475189751147519025114751907511475191251147519175114751922511475192751147519325114751937511475)
 (.leaf 1942511475194751147519525114751957511475196251147519675114751972511475197751147519825114751987511475199251147519975114752002511475200751147520125114752017511475202251147520275114752032511475203751147520425114752047511475205251147520575114752062511475206751147520725114752077511475208251147520875114752092511475209751147521025114752107511475211251147521175114752122511475212751147521325114752137511475214251147521475114752152511475217251147521775114752182511475218751147521925114752197511475220251147522075114752212511475221751147522225114752227511475223251147522375114752242511475224751147522525114752257511475226251147522675114752272511475))
 (.node 1 (.leaf 2277511475228251147522875114752292511475229751147523025114752307511475231251147523175114752347511475235251147523575114752362511475246751147524725114752477511475248251147524875114752492511475249751147525025114752507511475251251147525175114752522511475252751147525325114752537511475254251147525475114752552511475255751147525625114752567511475257251147525775114752582511475258751147525925114752597511475260251147526075114752612511475261751147526225114752627511475263251147526375114752642511475264751147526525114752657511475266251147526675114752672511475267751147526825114752687511475269251147526975114752702511475270751147527125114752717511475)
 (.leaf 2722511475272751147527325114752737511475274251147527475114752752511475275751147527625114752767511475277251147527775114752782511475278751147527925114752797511475280251147528075114752812511475281751147528225114752827511475283251147528375114752842511475284751147528525114752857511475286251147528675114752872511475287751147528825114752887511475289251147528975114752902511475290751147529125114752917511475292251147529275114752932511475293751147529425114752947511475295251147529575114752962511475296751147529725114752977511475298251147529875114752992511475299751147530075114753012511475301751147530525114753212511475068251142506875114250692511425)))
 (.node 2 (.node 1 (.leaf 697511425070251142507225114250727511425073251142507375114250742511425074751142507525114250757511425076251142507675114250772511425077751142507825114250787511425079251142507975114250802511425080751142508125114250817511425082251142510175114251022511425104751142516425114251647511425165251142516575114251662511425166751142516725114251677511425168251142516875114251692511425169751142517025114251707511425171251142517175114251722511425172751142517325114251737511425174251142517475114251752511425175751142517625114251767511425177251142517775114251782511425178751142517925114251797511425180251142518075114251812511425181751142518225114251827511425)
 (.leaf 1832511425183751142518425114251847511425185251142518575114251862511425186751142518725114251877511425188251142518875114251892511425189751142519025114251907511425191251142519175114251922511425192751142519325114251937511425194251142519475114251952511425195751142519625114251967511425197251142519775114251982511425198751142519925114251997511425200251142520075114252012511425201751142520225114252027511425203251142520375114252042511425204751142520525114252057511425206251142520675114252072511425207751142520825114252087511425209251142520975114252102511425210751142521125114252117511425212251142521275114252132511425213751142521425114252147511425))
 (.node 1 (.leaf 2152511425215751142521775114252182511425218751142521925114252197511425220251142522075114252212511425221751142522225114252227511425223251142522375114252242511425224751142522525114252257511425226251142522675114252272511425227751142522825114252287511425229251142522975114252302511425230751142523125114252317511425232751142523325114252337511425234251142523475114252352511425235751142523625114252367511425247251142524775114252482511425248751142524925114252497511425250251142525075114252512511425251751142525225114252527511425253251142525375114252542511425254751142525525114252557511425256251142525675114252572511425257751142525825114252587511425)
 (.leaf 2592511425259751142526025114252607511425261251142526175114252622511425262751142526325114252637511425264251142526475114252652511425265751142526625114252667511425267251142526775114252682511425268751142526925114252697511425270251142527075114252712511425271751142527225114252727511425273251142527375114252742511425274751142527525114252757511425276251142527675114252772511425277751142527825114252787511425279251142527975114252802511425280751142528125114252817511425282251142528275114252832511425283751142528425114252847511425285251142528575114252862511425286751142528725114252877511425288251142528875114252892511425289751142529025114252907511425)))))
 (.node 8 (.node 4 (.node 2 (.node 1 (.leaf 2912511425291751142529225114252927511425293251142529375114252942511425294751142529525114252957511425296251142529675114252972511425297751142529825114252987511425300251142530075114253012511425301751142530325114253037511425304251142533375114253342511425013751137506925113750697511375070251137507325113750737511375074251137507475113750752511375075751137507625113750767511375077251137507775113750782511375078751137507925113750797511375080251137508075113750812511375081751137508225113751022511375103751137510425113751047511375164251137516475113751652511375165751137516625113751667511375167251137516775113751682511375168751137516925113751697511375)
 (.leaf 1702511375170751137517125113751717511375172251137517275113751732511375173751137517425113751747511375175251137517575113751762511375176751137517725113751777511375178251137517875113751792511375179751137518025113751807511375181251137518175113751822511375182751137518325113751837511375184251137518475113751852511375185751137518625113751867511375187251137518775113751882511375188751137518925113751897511375190251137519075113751912511375191751137519225113751927511375193251137519375113751942511375194751137519525113751957511375196251137519675113751972511375197751137519825113751987511375199251137519975113752002511375200751137520125113752017511375))
 (.node 1 (.leaf 2022511375202751137520325113752037511375204251137520475113752052511375205751137520625113752067511375207251137520775113752082511375208751137520925113752097511375210251137521075113752112511375211751137521225113752127511375213251137521375113752142511375214751137521525113752157511375218251137521875113752192511375219751137522025113752207511375221251137522175113752222511375222751137522325113752237511375224251137522475113752252511375225751137522625113752267511375227251137522775113752282511375228751137522925113752297511375230251137523075113752312511375231751137523225113752327511375233251137523375113752342511375234751137523525113752357511375)
 (.leaf 2362511375236751137523725113752377511375238251137523875113752477511375248251137524875113752492511375249751137525025113752507511375251251137525175113752522511375252751137525325113752537511375254251137525475113752552511375255751137525625113752567511375257251137525775113752582511375258751137525925113752597511375260251137526075113752612511375261751137526225113752627511375263251137526375113752642511375264751137526525113752657511375266251137526675113752672511375267751137526825113752687511375269251137526975113752702511375270751137527125113752717511375272251137527275113752732511375273751137527425113752747511375275251137527575113752762511375)))
 (.node 2 (.node 1 (.leaf 2767511375277251137527775113752782511375278751137527925113752797511375280251137528075113752812511375281751137528225113752827511375283251137528375113752842511375284751137528525113752857511375286251137528675113752872511375287751137528825113752887511375289251137528975113752902511375290751137529125113752917511375292251137529275113752932511375293751137529425113752947511375295251137529575113752962511375296751137529725113752977511375299751137530025113753007511375301251137530175113750697511325070251132507075113250732511325073751132507425113250747511325075251132507575113250762511325076751132507725113250777511325078251132507875113250792511325)
 (.leaf 797511325080251132508075113250812511325081751132508225113250977511325098251132509875113250992511325104251132510475113251052511325163751132516425113251647511325165251132516575113251662511325166751132516725113251677511325168251132516875113251692511325169751132517025113251707511325171251132517175113251722511325172751132517325113251737511325174251132517475113251752511325175751132517625113251767511325177251132517775113251782511325178751132517925113251797511325180251132518075113251812511325181751132518225113251827511325183251132518375113251842511325184751132518525113251857511325186251132518675113251872511325187751132518825113251887511325))
 (.node 1 (.leaf 1892511325189751132519025113251907511325191251132519175113251922511325192751132519325113251937511325194251132519475113251952511325195751132519625113251967511325197251132519775113251982511325198751132519925113251997511325200251132520075113252012511325201751132520225113252027511325203251132520375113252042511325204751132520525113252057511325206251132520675113252072511325207751132520825113252087511325209251132520975113252102511325210751132521125113252117511325212251132521275113252132511325213751132521425113252147511325215251132521575113252187511325219251132521975113252202511325220751132522125113252217511325222251132522275113252232511325)
 (.leaf 2237511325224251132522475113252252511325225751132522625113252267511325227251132522775113252282511325228751132522925113252297511325230251132523075113252312511325231751132523225113252327511325233251132523375113252342511325234751132523525113252357511325236251132523675113252372511325237751132523825113252387511325248251132524875113252492511325249751132525025113252507511325251251132525175113252522511325252751132525325113252537511325254251132525475113252552511325255751132525625113252567511325257251132525775113252582511325258751132525925113252597511325260251132526075113252612511325261751132526225113252627511325263251132526375113252642511325))))
 (.node 4 (.node 2 (.node 1 (.leaf 2647511325265251132526575113252662511325266751132526725113252677511325268251132526875113252692511325269751132527025113252707511325271251132527175113252722511325272751132527325113252737511325274251132527475113252752511325275751132527625113252767511325277251132527775113252782511325278751132527925113252797511325280251132528075113252812511325281751132528225113252827511325283251132528375113252842511325284751132528525113252857511325286251132528675113252872511325287751132528825113252887511325289251132528975113252902511325290751132529125113252917511325292251132529275113252932511325293751132529425113252947511325295251132529575113252962511325)
 (.leaf 2967511325297251132529975113253002511325300751132530125113250697511275070251127507425112750747511275075251127507575112750762511275076751127507725112750777511275078251127507875112750792511275079751127508025112750807511275081251127508175112750822511275095751127509625112750967511275097251127509775112750982511275098751127509925112750997511275100251127510075112751017511275105751127510625112751637511275164251127516475112751652511275165751127516625112751667511275167251127516775112751682511275168751127516925112751697511275170251127517075112751712511275171751127517225112751727511275173251127517375112751742511275174751127517525112751757511275))
 (.node 1 (.leaf 1762511275176751127517725112751777511275178251127517875112751792511275179751127518025112751807511275181251127518175112751822511275182751127518325112751837511275184251127518475112751852511275185751127518625112751867511275187251127518775112751882511275188751127518925112751897511275190251127519075112751912511275191751127519225112751927511275193251127519375112751942511275194751127519525112751957511275196251127519675112751972511275197751127519825112751987511275199251127519975112752002511275200751127520125112752017511275202251127520275112752032511275203751127520425112752047511275205251127520575112752062511275206751127520725112752077511275)
 (.leaf 2082511275208751127520925112752097511275210251127521075112752112511275211751127521225112752127511275213251127521375112752142511275214751127521525112752157511275216251127521875112752192511275219751127522025112752207511275221251127522175112752222511275222751127522325112752237511275224251127522475112752252511275225751127522625112752267511275227251127522775112752282511275228751127522925112752297511275230251127523075112752312511275231751127523225112752327511275233251127523375112752342511275234751127523525112752357511275236251127523675112752372511275237751127523825112752387511275239251127523975112752492511275249751127525025112752507511275)))
 (.node 2 (.node 1 (.leaf 2512511275251751127525225112752527511275253251127525375112752542511275254751127525525112752557511275256251127525675112752572511275257751127525825112752587511275259251127525975112752602511275260751127526125112752617511275262251127526275112752632511275263751127526425112752647511275265251127526575112752662511275266751127526725112752677511275268251127526875112752692511275269751127527025112752707511275271251127527175112752722511275272751127527325112752737511275274251127527475112752752511275275751127527625112752767511275277251127527775112752782511275278751127527925112752797511275280251127528075112752812511275281751127528225112752827511275)
 (.leaf 2832511275283751127528425112752847511275285251127528575112752862511275286751127528725112752877511275288251127528875112752892511275289751127529025112752907511275291251127529175112752922511275292751127529325112752937511275294251127529475112752952511275295751127529625112752967511275300251127530075112753012511275020251122502075112250742511225074751122507525112250757511225076251122507675112250772511225077751122507825112250787511225079251122507975112250802511225080751122508125112250817511225082251122509575112250962511225096751122509775112250982511225098751122509925112250997511225100251122510075112251012511225101751122510225112251032511225))
 (.node 1 (.leaf 1057511225106251122510675112251072511225163251122516375112251642511225164751122516525112251657511225166251122516675112251672511225167751122516825112251687511225169251122516975112251702511225170751122517125112251717511225172251122517275112251732511225173751122517425112251747511225175251122517575112251762511225176751122517725112251777511225178251122517875112251792511225179751122518025112251807511225181251122518175112251822511225182751122518325112251837511225184251122518475112251852511225185751122518625112251867511225187251122518775112251882511225188751122518925112251897511225190251122519075112251912511225191751122519225112251927511225)
 (.leaf 1932511225193751122519425112251947511225195251122519575112251962511225196751122519725112251977511225198251122519875112251992511225199751122520025112252007511225201251122520175112252022511225202751122520325112252037511225204251122520475112252052511225205751122520625112252067511225207251122520775112252082511225208751122520925112252097511225210251122521075112252112511225211751122521225112252127511225213251122521375112252142511225214751122521525112252157511225216251122521675112252192511225219751122522025112252207511225221251122522175112252222511225222751122522325112252237511225224251122522475112252252511225225751122522625112252267511225)))))))
 (.node 32 (.node 16 (.node 8 (.node 4 (.node 2 (.node 1 (.leaf 2272511225227751122522825112252287511225229251122522975112252302511225230751122523125112252317511225232251122523275112252332511225233751122523425112252347511225235251122523575112252362511225236751122523725112252377511225238251122523875112252392511225239751122524925112252497511225250251122525075112252512511225251751122525225112252527511225253251122525375112252542511225254751122525525112252557511225256251122525675112252572511225257751122525825112252587511225259251122525975112252602511225260751122526125112252617511225262251122526275112252632511225263751122526425112252647511225265251122526575112252662511225266751122526725112252677511225)
 (.leaf 2682511225268751122526925112252697511225270251122527075112252712511225271751122527225112252727511225273251122527375112252742511225274751122527525112252757511225276251122527675112252772511225277751122527825112252787511225279251122527975112252802511225280751122528125112252817511225282251122528275112252832511225283751122528425112252847511225285251122528575112252862511225286751122528725112252877511225288251122528875112252892511225289751122529025112252907511225291251122529175112252922511225292751122529325112252937511225294251122529475112253002511225300751122502025111750207511175021751117502225111750732511175074251117507475111750752511175))
 (.node 1 (.leaf 757511175076251117507675111750772511175077751117507825111750787511175079251117507975111750802511175080751117508125111750817511175082251117509175111750922511175092751117509525111750957511175096751117509725111750987511175099251117509975111751002511175100751117510125111751017511175102251117510275111751077511175108251117516325111751637511175164251117516475111751652511175165751117516625111751667511175167251117516775111751682511175168751117516925111751697511175170251117517075111751712511175171751117517225111751727511175173251117517375111751742511175174751117517525111751757511175176251117517675111751772511175177751117517825111751787511175)
 (.leaf 1792511175179751117518025111751807511175181251117518175111751822511175182751117518325111751837511175184251117518475111751852511175185751117518625111751867511175187251117518775111751882511175188751117518925111751897511175190251117519075111751912511175191751117519225111751927511175193251117519375111751942511175194751117519525111751957511175196251117519675111751972511175197751117519825111751987511175199251117519975111752002511175200751117520125111752017511175202251117520275111752032511175203751117520425111752047511175205251117520575111752062511175206751117520725111752077511175208251117520875111752092511175209751117521025111752107511175)))
 (.node 2 (.node 1 (.leaf 2112511175211751117521225111752127511175213251117521375111752142511175214751117521525111752157511175216251117521675111752192511175219751117522025111752207511175221251117522175111752222511175222751117522325111752237511175224251117522475111752252511175225751117522625111752267511175227251117522775111752282511175228751117522925111752297511175230251117523075111752312511175231751117523225111752327511175233251117523375111752342511175234751117523525111752357511175236251117523675111752372511175237751117523825111752387511175239251117523975111752492511175249751117525025111752507511175251251117525175111752522511175252751117525325111752537511175)
 (.leaf 2542511175254751117525525111752557511175256251117525675111752572511175257751117525825111752587511175259251117525975111752602511175260751117526125111752617511175262251117526275111752632511175263751117526425111752647511175265251117526575111752662511175266751117526725111752677511175268251117526875111752692511175269751117527025111752717511175272251117527275111752732511175273751117527425111752747511175275251117527575111752762511175276751117527725111752777511175278251117527875111752792511175279751117528025111752807511175281251117528175111752822511175282751117528325111752837511175284251117528475111752852511175285751117528625111752867511175))
 (.node 1 (.leaf 2872511175287751117528825111752887511175289251117528975111752902511175290751117529125111752917511175292251117529275111753007511175021751112502225111250227511125023251112502375111250737511125074751112507525111250757511125076251112507675111250772511125077751112507825111250787511125079251112507975111250802511125080751112508125111250817511125082251112508275111250897511125090251112509075111250912511125091751112509225111250927511125093251112509675111251012511125101751112510225111251027511125103251112510375111251042511125106251112510675111251627511125163251112516375111251642511125164751112516525111251657511125166251112516675111251672511125)
 (.leaf 1677511125168251112516875111251692511125169751112517025111251707511125171251112517175111251722511125172751112517325111251737511125174251112517475111251752511125175751112517625111251767511125177251112517775111251782511125178751112517925111251797511125180251112518075111251812511125181751112518225111251827511125183251112518375111251842511125184751112518525111251857511125186251112518675111251872511125187751112518825111251887511125189251112518975111251902511125190751112519125111251917511125192251112519275111251932511125193751112519425111251947511125195251112519575111251962511125196751112519725111251977511125198251112519875111251992511125))))
 (.node 4 (.node 2 (.node 1 (.leaf 1997511125200251112520075111252012511125201751112520225111252027511125203251112520375111252042511125204751112520525111252057511125206251112520675111252072511125207751112520825111252087511125209251112520975111252102511125210751112521125111252117511125212251112521275111252132511125213751112521425111252147511125215251112521575111252162511125216751112521725111252192511125219751112522025111252207511125221251112522175111252222511125222751112522325111252237511125224251112522475111252252511125225751112522625111252267511125227251112522775111252282511125228751112522925111252297511125230251112523075111252312511125231751112523225111252327511125)
 (.leaf 2332511125233751112523425111252347511125235251112523575111252362511125236751112523725111252377511125238251112523875111252392511125249751112525025111252507511125251251112525175111252522511125252751112525325111252537511125254251112525475111252552511125255751112525625111252567511125257251112525775111252582511125258751112525925111252597511125260251112526075111252612511125261751112526225111252627511125263251112526375111252642511125264751112526525111252657511125266251112526675111252672511125271751112527225111252727511125273251112527375111252742511125274751112527525111252757511125276251112527675111252772511125277751112527825111252787511125))
 (.node 1 (.leaf 2792511125279751112528025111252807511125281251112528175111252822511125282751112528325111252837511125284251112528475111252852511125285751112528625111252867511125287251112528775111252882511125289251112528975111252902511125290751112529125111250227511075023251107502375110750242511075074751107507525110750757511075076251107507675110750772511075077751107507825110750787511075079251107507975110750802511075080751107508125110750817511075082251107508275110750897511075090251107509075110750912511075091751107509225110750927511075093251107510175110751022511075102751107510325110751037511075104251107510475110751052511075106251107510675110751627511075)
 (.leaf 1632511075163751107516425110751647511075165251107516575110751662511075166751107516725110751677511075168251107516875110751692511075169751107517025110751707511075171251107517175110751722511075172751107517325110751737511075174251107517475110751752511075175751107517625110751767511075177251107517775110751782511075178751107517925110751797511075180251107518075110751812511075181751107518225110751827511075183251107518375110751842511075184751107518525110751857511075186251107518675110751872511075187751107518825110751887511075189251107518975110751902511075190751107519125110751917511075192251107519275110751932511075193751107519425110751947511075)))
 (.node 2 (.node 1 (.leaf 1952511075195751107519625110751967511075197251107519775110751982511075198751107519925110751997511075200251107520075110752012511075201751107520225110752027511075203251107520375110752042511075204751107520525110752057511075206251107520675110752072511075207751107520825110752087511075209251107520975110752102511075210751107521125110752117511075212251107521275110752132511075213751107521425110752147511075215251107521575110752162511075216751107521725110752192511075219751107522025110752207511075221251107522175110752222511075222751107522325110752237511075224251107522475110752252511075225751107522625110752267511075227251107522775110752282511075)
 (.leaf 2287511075229251107522975110752302511075230751107523125110752317511075232251107523275110752332511075233751107523425110752347511075235251107523575110752362511075236751107523725110752377511075238251107523875110752502511075250751107525125110752517511075252751107525325110752537511075254251107525475110752552511075255751107525625110752567511075257251107525775110752582511075258751107525925110752597511075260251107526075110752612511075261751107526225110752627511075263251107526375110752642511075264751107526525110752657511075266251107526675110752722511075272751107527325110752737511075274251107527475110752752511075275751107527625110752767511075))
 (.node 1 (.leaf 2772511075277751107527825110752787511075279251107527975110752802511075280751107528125110752817511075282251107528275110752832511075283751107528425110752847511075285251107528575110752862511075286751107528725110752877511075289751107529025110750242511025024751102507425110250747511025075251102507575110250762511025076751102507725110250777511025078251102507875110250792511025079751102508025110250807511025081251102508175110250822511025082751102508325110250897511025090251102509075110250912511025091751102509225110250927511025093251102510225110251027511025103251102510375110251042511025104751102510525110251057511025107251102516375110251642511025)
 (.leaf 1647511025165251102516575110251662511025166751102516725110251677511025168251102516875110251692511025169751102517025110251707511025171251102517175110251722511025172751102517325110251737511025174251102517475110251752511025175751102517625110251767511025177251102517775110251782511025178751102517925110251797511025180251102518075110251812511025181751102518225110251827511025183251102518375110251842511025184751102518525110251857511025186251102518675110251872511025187751102518825110251887511025189251102518975110251902511025190751102519125110251917511025192251102519275110251932511025193751102519425110251947511025195251102519575110251962511025)))))
 (.node 8 (.node 4 (.node 2 (.node 1 (.leaf 1967511025197251102519775110251982511025198751102519925110251997511025200251102520075110252012511025201751102520225110252027511025203251102520375110252042511025204751102520525110252057511025206251102520675110252072511025207751102520825110252087511025209251102520975110252102511025210751102521125110252117511025212251102521275110252132511025213751102521425110252147511025215251102521575110252162511025216751102521725110252197511025220251102522075110252212511025221751102522225110252227511025223251102522375110252242511025224751102522525110252257511025226251102522675110252272511025227751102522825110252287511025229251102522975110252302511025)
 (.leaf 2307511025231251102523175110252322511025232751102523325110252337511025234251102523475110252352511025235751102523625110252367511025237251102523775110252382511025238751102525275110252532511025253751102525425110252547511025255251102525575110252562511025256751102525725110252577511025258251102525875110252592511025259751102526025110252607511025261251102526175110252622511025262751102526325110252637511025264251102526475110252652511025265751102526625110252667511025272751102527325110252737511025274251102527475110252752511025275751102527625110252767511025277251102527775110252782511025278751102527925110252797511025280251102528075110252812511025))
 (.node 1 (.leaf 2817511025282251102528275110252832511025283751102528425110252847511025285251102528575110252862511025286751102528975110252902511025290751102530175110253022511025023751097502425109750247510975025251097507475109750752510975075751097507625109750767510975077251097507775109750782510975078751097507925109750797510975080251097508075109750812510975081751097508225109750827510975083251097508375109750892510975089751097509025109750907510975091251097509175109750922510975102251097510275109751032510975103751097510425109751047510975106751097510725109751077510975108251097510875109751092510975109751097511025109751637510975164251097516475109751652510975)
 (.leaf 1657510975166251097516675109751672510975167751097516825109751687510975169251097516975109751702510975170751097517125109751717510975172251097517275109751732510975173751097517425109751747510975175251097517575109751762510975176751097517725109751777510975178251097517875109751792510975179751097518025109751807510975181251097518175109751822510975182751097518325109751837510975184251097518475109751852510975185751097518625109751867510975187251097518775109751882510975188751097518925109751897510975190251097519075109751912510975191751097519225109751927510975193251097519375109751942510975194751097519525109751957510975196251097519675109751972510975)))
 (.node 2 (.node 1 (.leaf 1977510975198251097519875109751992510975199751097520025109752007510975201251097520175109752022510975202751097520325109752037510975204251097520475109752052510975205751097520625109752067510975207251097520775109752082510975208751097520925109752097510975210251097521075109752112510975211751097521225109752127510975213251097521375109752142510975214751097521525109752157510975216251097521675109752172510975220751097522125109752217510975222251097522275109752232510975223751097522425109752247510975225251097522575109752262510975226751097522725109752277510975228251097522875109752292510975229751097523025109752307510975231251097523175109752322510975)
 (.leaf 2327510975233251097523375109752342510975234751097523525109752357510975236251097523675109752372510975237751097525275109752532510975253751097525425109752547510975255251097525575109752562510975256751097525725109752577510975258251097525875109752592510975259751097526025109752607510975261251097526175109752622510975262751097526325109752637510975264251097526475109752652510975265751097526625109752732510975273751097527425109752747510975275251097527575109752762510975276751097527725109752777510975278251097527875109752792510975279751097528025109752807510975281251097528175109752822510975282751097528325109752837510975284251097528475109752852510975))
 (.node 1 (.leaf 2857510975286251097528925109752897510975290251097529075109750242510925024751092502525109250747510925075251092507575109250762510925076751092507725109250777510925078251092507875109250792510925079751092508025109250807510925081251092508175109250822510925082751092508325109250837510925088751092508925109250897510925090251092509075109250912510925091751092509225109250987510925107251092510775109251082510925108751092510925109251097510925110251092511075109251112510925163251092516375109251642510925164751092516525109251657510925166251092516675109251672510925167751092516825109251687510925169251092516975109251702510925170751092517125109251717510925)
 (.leaf 1722510925172751092517325109251737510925174251092517475109251752510925175751092517625109251767510925177251092517775109251782510925178751092517925109251797510925180251092518075109251812510925181751092518225109251827510925183251092518375109251842510925184751092518525109251857510925186251092518675109251872510925187751092518825109251887510925189251092518975109251902510925190751092519125109251917510925192251092519275109251932510925193751092519425109251947510925195251092519575109251962510925196751092519725109251977510925198251092519875109251992510925199751092520025109252007510925201251092520175109252022510925202751092520325109252037510925))))
 (.node 4 (.node 2 (.node 1 (.leaf 2042510925204751092520525109252057510925206251092520675109252072510925207751092520825109252087510925209251092520975109252102510925210751092521125109252117510925212251092521275109252132510925213751092521425109252147510925215251092521575109252162510925216751092521725109252212510925221751092522225109252227510925223251092522375109252242510925224751092522525109252257510925226251092522675109252272510925227751092522825109252287510925229251092522975109252302510925230751092523125109252317510925232251092523275109252332510925233751092523425109252347510925235251092523575109252362510925236751092523725109252377510925252751092525325109252537510925)
 (.leaf 2542510925254751092525525109252557510925256251092525675109252572510925257751092525825109252587510925259251092525975109252602510925260751092526125109252617510925262251092526275109252632510925263751092526425109252647510925265251092527375109252742510925274751092527525109252757510925276251092527675109252772510925277751092527825109252787510925279251092527975109252802510925280751092528125109252817510925282251092528275109252832510925283751092528425109252847510925285251092528575109252887510925289251092528975109252902510925290751092530125109253467510925024251087507575108750762510875076751087507725108750777510875078251087507875108750792510875))
 (.node 1 (.leaf 797510875080251087508075108750812510875081751087508225108750827510875083251087508375108750842510875084751087508525108750872510875087751087508825108750887510875089251087508975108750902510875090751087509125108750917510875092251087510225108751057510875106251087510675108751072510875107751087510825108751087510875109251087510975108751102510875110751087511125108751117510875112751087511325108751137510875114251087516375108751642510875164751087516525108751657510875166251087516675108751672510875167751087516825108751687510875169251087516975108751702510875170751087517125108751717510875172251087517275108751732510875173751087517425108751747510875)
 (.leaf 1752510875175751087517625108751767510875177251087517775108751782510875178751087517925108751797510875180251087518075108751812510875181751087518225108751827510875183251087518375108751842510875184751087518525108751857510875186251087518675108751872510875187751087518825108751887510875189251087518975108751902510875190751087519125108751917510875192251087519275108751932510875193751087519425108751947510875195251087519575108751962510875196751087519725108751977510875198251087519875108751992510875199751087520025108752007510875201251087520175108752022510875202751087520325108752037510875204251087520475108752052510875205751087520625108752067510875)))
 (.node 2 (.node 1 (.leaf 2072510875207751087520825108752087510875209251087520975108752102510875210751087521125108752117510875212251087521275108752132510875213751087521425108752147510875215251087521575108752162510875216751087521725108752177510875221251087522175108752222510875222751087522325108752237510875224251087522475108752252510875225751087522625108752267510875227251087522775108752282510875228751087522925108752297510875230251087523075108752312510875231751087523225108752327510875233251087523375108752342510875234751087523525108752357510875236251087523675108752372510875237751087525275108752532510875253751087525425108752547510875255251087525575108752562510875)
 (.leaf 2567510875257251087525775108752582510875258751087525925108752597510875260251087526075108752612510875261751087526225108752627510875263251087526375108752642510875264751087527375108752742510875274751087527525108752757510875276251087527675108752772510875277751087527825108752787510875279251087527975108752802510875280751087528125108752817510875282251087528275108752832510875283751087528425108752847510875285251087528575108752887510875289251087528975108752902510875301251087507625108250767510825077251082507775108250782510825078751082507925108250797510825080251082508075108250812510825081751082508225108250827510825083251082508375108250842510825))
 (.node 1 (.leaf 847510825085251082508575108250862510825086751082508725108250877510825088251082508875108250892510825089751082509025108250907510825091251082509175108250922510825101751082510225108251027510825103251082510375108251057510825106251082510675108251072510825107751082510825108251087510825109251082510975108251102510825110751082511125108251117510825112251082511275108251132510825113751082511425108251147510825115251082511675108251637510825164251082516475108251652510825165751082516625108251667510825167251082516775108251682510825168751082516925108251697510825170251082517075108251712510825171751082517225108251727510825173251082517375108251742510825)
 (.leaf 1747510825175251082517575108251762510825176751082517725108251777510825178251082517875108251792510825179751082518025108251807510825181251082518175108251822510825182751082518325108251837510825184251082518475108251852510825185751082518625108251867510825187251082518775108251882510825188751082518925108251897510825190251082519075108251912510825191751082519225108251927510825193251082519375108251942510825194751082519525108251957510825196251082519675108251972510825197751082519825108251987510825199251082519975108252002510825200751082520125108252017510825202251082520275108252032510825203751082520425108252047510825205251082520575108252062510825))))))
 (.node 16 (.node 8 (.node 4 (.node 2 (.node 1 (.leaf 2067510825207251082520775108252082510825208751082520925108252097510825210251082521075108252112510825211751082521225108252127510825213251082521375108252142510825214751082521525108252157510825216251082521675108252172510825217751082521825108252212510825221751082522225108252227510825223251082522375108252242510825224751082522525108252257510825226251082522675108252272510825227751082522825108252287510825229251082522975108252302510825230751082523125108252317510825232251082523275108252332510825233751082523425108252347510825235251082523575108252362510825236751082525275108252532510825253751082525425108252547510825255251082525575108252562510825)
 (.leaf 2567510825257251082525775108252582510825258751082525925108252597510825260251082526075108252612510825261751082526225108252627510825263251082526375108252642510825274251082527475108252752510825275751082527625108252767510825277251082527775108252782510825278751082527925108252797510825280251082528075108252812510825281751082528225108252827510825283251082528375108252842510825284751082528525108252857510825286251082528875108252892510825289751082530075108253012510825301751082530225108250777510775078251077507875107750792510775079751077508025107750807510775081251077508175107750822510775082751077508325107750837510775084251077508475107750852510775))
 (.node 1 (.leaf 857510775086251077508675107750872510775087751077508825107750887510775089251077508975107750902510775090751077509125107750917510775102251077510275107751032510775103751077510825107751087510775112751077511325107751137510775114251077511525107751182510775164251077516475107751652510775165751077516625107751667510775167251077516775107751682510775168751077516925107751697510775170251077517075107751712510775171751077517225107751727510775173251077517375107751742510775174751077517525107751757510775176251077517675107751772510775177751077517825107751787510775179251077517975107751802510775180751077518125107751817510775182251077518275107751832510775)
 (.leaf 1837510775184251077518475107751852510775185751077518625107751867510775187251077518775107751882510775188751077518925107751897510775190251077519075107751912510775191751077519225107751927510775193251077519375107751942510775194751077519525107751957510775196251077519675107751972510775197751077519825107751987510775199251077519975107752002510775200751077520125107752017510775202251077520275107752032510775203751077520425107752047510775205251077520575107752062510775206751077520725107752077510775208251077520875107752092510775209751077521025107752107510775211251077521175107752122510775212751077521325107752137510775214251077521475107752152510775)))
 (.node 2 (.node 1 (.leaf 2157510775216251077521675107752172510775217751077521825107752187510775221751077522225107752227510775223251077522375107752242510775224751077522525107752257510775226251077522675107752272510775227751077522825107752287510775229251077522975107752302510775230751077523125107752317510775232251077523275107752332510775233751077523425107752347510775235251077523575107752362510775253251077525375107752542510775254751077525525107752557510775256251077525675107752572510775257751077525825107752587510775259251077525975107752602510775260751077526125107752617510775262251077526275107752632510775274751077527525107752757510775276251077527675107752772510775)
 (.leaf 2777510775278251077527875107752792510775279751077528025107752807510775281251077528175107752822510775282751077528325107752837510775284251077528475107752852510775285751077528625107753002510775300751077530125107753017510775302251077507875107250792510725079751072508025107250807510725081251072508175107250822510725082751072508325107250837510725084251072508475107250852510725085751072508625107250867510725087251072508775107250882510725088751072508925107250897510725090251072509075107250912510725091751072509625107251082510725117251072511825107251547510725155251072516375107251642510725164751072516525107251657510725166251072516675107251672510725))
 (.node 1 (.leaf 1677510725168251072516875107251692510725169751072517025107251707510725171251072517175107251722510725172751072517325107251737510725174251072517475107251752510725175751072517625107251767510725177251072517775107251782510725178751072517925107251797510725180251072518075107251812510725181751072518225107251827510725183251072518375107251842510725184751072518525107251857510725186251072518675107251872510725187751072518825107251887510725189251072518975107251902510725190751072519125107251917510725192251072519275107251932510725193751072519425107251947510725195251072519575107251962510725196751072519725107251977510725198251072519875107251992510725)
 (.leaf 1997510725200251072520075107252012510725201751072520225107252027510725203251072520375107252042510725204751072520525107252057510725206251072520675107252072510725207751072520825107252087510725209251072520975107252102510725210751072521125107252117510725212251072521275107252132510725213751072521425107252147510725215251072521575107252162510725216751072521725107252177510725218251072521875107252222510725222751072522325107252237510725224251072522475107252252510725225751072522625107252267510725227251072522775107252282510725228751072522925107252297510725230251072523075107252312510725231751072523225107252327510725233251072523375107252342510725))))
 (.node 4 (.node 2 (.node 1 (.leaf 2347510725235251072525325107252537510725254251072525475107252552510725255751072525625107252567510725257251072525775107252582510725258751072525925107252597510725260251072526075107252612510725261751072526225107252627510725274751072527525107252757510725276251072527675107252772510725277751072527825107252787510725279251072527975107252802510725280751072528125107252817510725282251072528275107252832510725283751072528425107252847510725285251072528575107252862510725286751072528725107253002510725300751072530125107253017510725302251072501025106750107510675079751067508025106750807510675081251067508175106750822510675082751067508325106750837510675)
 (.leaf 842510675084751067508525106750857510675086251067508675106750872510675087751067508825106750887510675089251067508975106750902510675090751067509125106750917510675094251067511775106751547510675155251067515575106751567510675157251067516375106751642510675164751067516525106751657510675166251067516675106751672510675167751067516825106751687510675169251067516975106751702510675170751067517125106751717510675172251067517275106751732510675173751067517425106751747510675175251067517575106751762510675176751067517725106751777510675178251067517875106751792510675179751067518025106751807510675181251067518175106751822510675182751067518325106751837510675))
 (.node 1 (.leaf 1842510675184751067518525106751857510675186251067518675106751872510675187751067518825106751887510675189251067518975106751902510675190751067519125106751917510675192251067519275106751932510675193751067519425106751947510675195251067519575106751962510675196751067519725106751977510675198251067519875106751992510675199751067520025106752007510675201251067520175106752022510675202751067520325106752037510675204251067520475106752052510675205751067520625106752067510675207251067520775106752082510675208751067520925106752097510675210251067521075106752112510675211751067521225106752127510675213251067521375106752142510675214751067521525106752157510675)
 (.leaf 2162510675216751067521725106752177510675218251067521875106752192510675222251067522275106752232510675223751067522425106752247510675225251067522575106752262510675226751067522725106752277510675228251067522875106752292510675229751067523025106752307510675231251067523175106752322510675232751067523325106752337510675234251067523475106752532510675253751067525425106752547510675255251067525575106752562510675256751067525725106752577510675258251067525875106752592510675259751067526025106752607510675261251067526175106752622510675274251067527475106752752510675275751067527625106752767510675277251067527775106752782510675278751067527925106752797510675)))
 (.node 2 (.node 1 (.leaf 2802510675280751067528125106752817510675282251067528275106752832510675283751067528425106752847510675285251067528575106752862510675286751067528725106752877510675291751067530025106753007510675301251067530175106753022510675081251062508175106250822510625082751062508325106250837510625084251062508475106250852510625085751062508625106250867510625087251062508775106250882510625088751062508925106250897510625090251062509075106250912510625091751062509425106251182510625118751062515725106251632510625163751062516425106251647510625165251062516575106251662510625166751062516725106251677510625168251062516875106251692510625169751062517025106251707510625)
 (.leaf 1712510625171751062517225106251727510625173251062517375106251742510625174751062517525106251757510625176251062517675106251772510625177751062517825106251787510625179251062517975106251802510625180751062518125106251817510625182251062518275106251832510625183751062518425106251847510625185251062518575106251862510625186751062518725106251877510625188251062518875106251892510625189751062519025106251907510625191251062519175106251922510625192751062519325106251937510625194251062519475106251952510625195751062519625106251967510625197251062519775106251982510625198751062519925106251997510625200251062520075106252012510625201751062520225106252027510625))
 (.node 1 (.leaf 2032510625203751062520425106252047510625205251062520575106252062510625206751062520725106252077510625208251062520875106252092510625209751062521025106252107510625211251062521175106252122510625212751062521325106252137510625214251062521475106252152510625215751062521625106252167510625217251062521775106252182510625218751062521925106252227510625223251062522375106252242510625224751062522525106252257510625226251062522675106252272510625227751062522825106252287510625229251062522975106252302510625230751062523125106252317510625232251062523275106252532510625253751062525425106252547510625255251062525575106252562510625256751062525725106252577510625)
 (.leaf 2582510625258751062525925106252597510625260251062526075106252612510625261751062526225106252742510625274751062527525106252757510625276251062527775106252782510625278751062527925106252797510625280251062528075106252812510625281751062528225106252827510625283251062528375106252842510625284751062528525106252857510625286251062528675106252872510625287751062528825106252997510625300251062530075106253012510625301751062530225106250822510575082751057508325105750837510575084251057508625105750867510575087251057508775105750882510575088751057508925105750897510575090251057509075105750912510575091751057509225105750927510575093251057509375105750942510575)))))
 (.node 8 (.node 4 (.node 2 (.node 1 (.leaf 947510575095251057509575105751187510575157251057516325105751637510575164251057516475105751652510575165751057516625105751667510575167251057516775105751682510575168751057516925105751697510575170251057517075105751712510575171751057517225105751727510575173251057517375105751742510575174751057517525105751757510575176251057517675105751772510575177751057517825105751787510575179251057517975105751802510575180751057518125105751817510575182251057518275105751832510575183751057518425105751847510575185251057518575105751862510575186751057518725105751877510575188251057518875105751892510575189751057519025105751907510575191251057519175105751922510575)
 (.leaf 1927510575193251057519375105751942510575194751057519525105751957510575196251057519675105751972510575197751057519825105751987510575199251057519975105752002510575200751057520125105752017510575202251057520275105752032510575203751057520425105752047510575205251057520575105752062510575206751057520725105752077510575208251057520875105752092510575209751057521025105752107510575211251057521175105752122510575212751057521325105752137510575214251057521475105752152510575215751057521625105752167510575217251057521775105752182510575218751057521925105752197510575220251057522225105752227510575223251057522375105752242510575224751057522525105752257510575))
 (.node 1 (.leaf 2262510575226751057522725105752277510575228251057522875105752292510575229751057523025105752307510575231251057523175105752322510575253751057525425105752547510575255251057525575105752562510575256751057525725105752577510575258251057525875105752592510575259751057526025105752607510575261251057527425105752747510575275251057527575105752777510575278251057527875105752792510575279751057528025105752807510575281251057528175105752822510575282751057528325105752837510575284251057528475105752852510575285751057528625105752867510575287251057528775105752882510575299751057530025105753007510575301251057530175105750867510525087251052508775105250882510525)
 (.leaf 887510525089251052508975105250902510525090751052509125105250917510525092251052509275105250932510525093751052509425105250947510525095251052509575105250962510525096751052511875105251557510525156251052515675105251632510525163751052516425105251647510525165251052516575105251662510525166751052516725105251677510525168251052516875105251692510525169751052517025105251707510525171251052517175105251722510525172751052517325105251737510525174251052517475105251752510525175751052517625105251767510525177251052517775105251782510525178751052517925105251797510525180251052518075105251812510525181751052518225105251827510525183251052518375105251842510525)))
 (.node 2 (.node 1 (.leaf 1847510525185251052518575105251862510525186751052518725105251877510525188251052518875105251892510525189751052519025105251907510525191251052519175105251922510525192751052519325105251937510525194251052519475105251952510525195751052519625105251967510525197251052519775105251982510525198751052519925105251997510525200251052520075105252012510525201751052520225105252027510525203251052520375105252042510525204751052520525105252057510525206251052520675105252072510525207751052520825105252087510525209251052520975105252102510525210751052521125105252117510525212251052521275105252132510525213751052521425105252147510525215251052521575105252162510525)
 (.leaf 2167510525217251052521775105252182510525218751052521925105252197510525220251052522225105252227510525223251052522375105252242510525224751052522525105252257510525226251052522675105252272510525227751052522825105252287510525229251052522975105252302510525230751052523125105252317510525253751052525425105252547510525255251052525575105252562510525256751052525725105252577510525258251052525875105252592510525259751052526025105252777510525278251052527875105252792510525279751052528025105252807510525281251052528175105252822510525282751052528325105252837510525284251052528475105252852510525285751052528625105252867510525287251052528775105252882510525))
 (.node 1 (.leaf 2887510525299751052530025105253007510525301251052532575105250872510475087751047508825104750887510475089251047508975104750902510475090751047509125104750917510475092251047509275104750932510475093751047509425104750947510475095251047509575104750962510475096751047511875104751192510475155251047515575104751562510475156751047516225104751627510475163251047516375104751642510475164751047516525104751657510475166251047516675104751672510475167751047516825104751687510475169251047516975104751702510475170751047517125104751717510475172251047517275104751732510475173751047517425104751747510475175251047517575104751762510475176751047517725104751777510475)
 (.leaf 1782510475178751047517925104751797510475180251047518075104751812510475181751047518225104751827510475183251047518375104751842510475184751047518525104751857510475186251047518675104751872510475187751047518825104751887510475189251047518975104751902510475190751047519125104751917510475192251047519275104751932510475193751047519425104751947510475195251047519575104751962510475196751047519725104751977510475198251047519875104751992510475199751047520025104752007510475201251047520175104752022510475202751047520325104752037510475204251047520475104752052510475205751047520625104752067510475207251047520775104752082510475208751047520925104752097510475))))
 (.node 4 (.node 2 (.node 1 (.leaf 2102510475210751047521125104752117510475212251047521275104752132510475213751047521425104752147510475215251047521575104752162510475216751047521725104752177510475218251047521875104752192510475219751047522025104752207510475221251047522275104752232510475223751047522425104752247510475225251047522575104752262510475226751047522725104752277510475228251047522875104752292510475229751047523025104752542510475254751047525525104752557510475256251047525675104752572510475257751047525825104752587510475259251047525975104752602510475277751047527825104752787510475279251047527975104752802510475280751047528125104752817510475282251047528275104752832510475)
 (.leaf 2837510475284251047528475104752852510475285751047528625104752867510475287251047528775104752882510475288751047528925104753002510475300751047530125104753017510475087751042508825104250887510425089251042508975104250902510425090751042509125104250917510425092251042509275104250932510425093751042509425104250947510425095251042509575104250962510425096751042511875104251192510425160251042516075104251627510425163251042516375104251642510425164751042516525104251657510425166251042516675104251672510425167751042516825104251687510425169251042516975104251702510425170751042517125104251717510425172251042517275104251732510425173751042517425104251747510425))
 (.node 1 (.leaf 1752510425175751042517625104251767510425177251042517775104251782510425178751042517925104251797510425180251042518075104251812510425181751042518225104251827510425183251042518375104251842510425184751042518525104251857510425186251042518675104251872510425187751042518825104251887510425189251042518975104251902510425190751042519125104251917510425192251042519275104251932510425193751042519425104251947510425195251042519575104251962510425196751042519725104251977510425198251042519875104251992510425199751042520025104252007510425201251042520175104252022510425202751042520325104252037510425204251042520475104252052510425205751042520625104252067510425)
 (.leaf 2072510425207751042520825104252087510425209251042520975104252102510425210751042521125104252117510425212251042521275104252132510425213751042521425104252147510425215251042521575104252162510425216751042521725104252177510425218251042521875104252192510425219751042522025104252207510425221251042522175104252227510425223251042522375104252242510425224751042522525104252257510425226251042522675104252272510425227751042522825104252287510425254251042525475104252552510425255751042525625104252567510425257251042525775104252582510425258751042525925104252597510425260251042527825104252787510425279251042527975104252802510425280751042528125104252817510425)))
 (.node 2 (.node 1 (.leaf 2822510425282751042528325104252837510425284251042528475104252852510425285751042528625104252867510425287251042528775104252882510425288751042528925104253002510425300751042530125104253017510425302251042530275104250887510375089251037508975103750902510375090751037509125103750917510375092251037509275103750932510375093751037509425103750947510375095251037509575103750962510375096751037516325103751637510375164251037516475103751652510375165751037516625103751667510375167251037516775103751682510375168751037516925103751697510375170251037517075103751712510375171751037517225103751727510375173251037517375103751742510375174751037517525103751757510375)
 (.leaf 1762510375176751037517725103751777510375178251037517875103751792510375179751037518025103751807510375181251037518175103751822510375182751037518325103751837510375184251037518475103751852510375185751037518625103751867510375187251037518775103751882510375188751037518925103751897510375190251037519075103751912510375191751037519225103751927510375193251037519375103751942510375194751037519525103751957510375196251037519675103751972510375197751037519825103751987510375199251037519975103752002510375200751037520125103752017510375202251037520275103752032510375203751037520425103752047510375205251037520575103752062510375206751037520725103752077510375))
 (.node 1 (.leaf 2082510375208751037520925103752097510375210251037521075103752112510375211751037521225103752127510375213251037521375103752142510375214751037521525103752157510375216251037521675103752172510375217751037521825103752187510375219251037521975103752202510375220751037522125103752217510375222251037522275103752232510375223751037522425103752247510375225251037522575103752262510375226751037522725103752277510375254751037525525103752557510375256251037525675103752572510375257751037525825103752587510375259251037525975103752602510375278251037527875103752792510375279751037528025103752807510375281251037528175103752822510375282751037528325103752837510375)
 (.leaf 2842510375284751037528525103752857510375286251037528675103752872510375287751037528825103752887510375289251037530025103753007510375301251037530175103753022510375302751037530325103753037510375304251037532475103750907510325091251032509175103250922510325092751032509325103250937510325094251032509475103250952510325095751032509625103250987510325118751032512025103251207510325163251032516375103251642510325164751032516525103251657510325166251032516675103251672510325167751032516825103251687510325169251032516975103251702510325170751032517125103251717510325172251032517275103251732510325173751032517425103251747510325175251032517575103251762510325)))))))))
 (.node 128 (.node 64 (.node 32 (.node 16 (.node 8 (.node 4 (.node 2 (.node 1 (.leaf 1767510325177251032517775103251782510325178751032517925103251797510325180251032518075103251812510325181751032518225103251827510325183251032518375103251842510325184751032518525103251857510325186251032518675103251872510325187751032518825103251887510325189251032518975103251902510325190751032519125103251917510325192251032519275103251932510325193751032519425103251947510325195251032519575103251962510325196751032519725103251977510325198251032519875103251992510325199751032520025103252007510325201251032520175103252022510325202751032520325103252037510325204251032520475103252052510325205751032520625103252067510325207251032520775103252082510325)
 (.leaf 2087510325209251032520975103252102510325210751032521125103252117510325212251032521275103252132510325213751032521425103252147510325215251032521575103252162510325216751032521725103252177510325218251032521875103252192510325219751032522025103252207510325221251032522175103252222510325222751032522325103252237510325224251032522475103252252510325225751032522625103252267510325254751032525525103252557510325256251032525675103252572510325257751032525825103252587510325259251032525975103252602510325272751032527825103252787510325279251032527975103252802510325280751032528125103252817510325282251032528275103252832510325283751032528425103252847510325))
 (.node 1 (.leaf 2852510325285751032528625103252867510325287251032528775103252882510325288751032528925103253002510325300751032530125103253017510325302251032530275103253032510325303751032532475103250922510275092751027509325102750937510275094251027509475102750952510275095751027509625102750982510275163251027516375102751642510275164751027516525102751657510275166251027516675102751672510275167751027516825102751687510275169251027516975102751702510275170751027517125102751717510275172251027517275102751732510275173751027517425102751747510275175251027517575102751762510275176751027517725102751777510275178251027517875102751792510275179751027518025102751807510275)
 (.leaf 1812510275181751027518225102751827510275183251027518375102751842510275184751027518525102751857510275186251027518675102751872510275187751027518825102751887510275189251027518975102751902510275190751027519125102751917510275192251027519275102751932510275193751027519425102751947510275195251027519575102751962510275196751027519725102751977510275198251027519875102751992510275199751027520025102752007510275201251027520175102752022510275202751027520325102752037510275204251027520475102752052510275205751027520625102752067510275207251027520775102752082510275208751027520925102752097510275210251027521075102752112510275211751027521225102752127510275)))
 (.node 2 (.node 1 (.leaf 2132510275213751027521425102752147510275215251027521575102752162510275216751027521725102752177510275218251027521875102752192510275219751027522025102752207510275221251027522175102752222510275222751027522325102752237510275224251027522475102752252510275233251027523375102752342510275254751027525525102752557510275256251027525675102752572510275257751027525825102752587510275259251027525975102752602510275272751027527875102752792510275279751027528075102752812510275281751027528225102752827510275283251027528375102752842510275284751027528525102752857510275286251027528675102752872510275287751027528825102752887510275289251027530075102753012510275)
 (.leaf 3022510275303751027530425102750927510225093251022509375102250942510225094751022509525102250957510225096251022509875102251077510225108251022510875102251097510225110751022511125102251182510225163251022516375102251642510225164751022516525102251657510225166251022516675102251672510225167751022516825102251687510225169251022516975102251702510225170751022517125102251717510225172251022517275102251732510225173751022517425102251747510225175251022517575102251762510225176751022517725102251777510225178251022517875102251792510225179751022518025102251807510225181251022518175102251822510225182751022518325102251837510225184251022518475102251852510225))
 (.node 1 (.leaf 1857510225186251022518675102251872510225187751022518825102251887510225189251022518975102251902510225190751022519125102251917510225192251022519275102251932510225193751022519425102251947510225195251022519575102251962510225196751022519725102251977510225198251022519875102251992510225199751022520025102252007510225201251022520175102252022510225202751022520325102252037510225204251022520475102252052510225205751022520625102252067510225207251022520775102252082510225208751022520925102252097510225210251022521075102252112510225211751022521225102252127510225213251022521375102252142510225214751022521525102252157510225216251022521675102252172510225)
 (.leaf 2177510225218251022521875102252192510225219751022522025102252207510225221251022522175102252222510225222751022522325102252307510225232251022523325102252337510225234251022525525102252557510225256251022525675102252572510225257751022525825102252587510225259251022525975102252602510225272751022527825102252787510225279251022527975102252822510225282751022528325102252837510225284251022528475102252852510225285751022528625102252867510225287251022528775102252882510225288751022528925102252997510225300251022530125102253022510225302751022530325102253037510225304251022530475102253052510225093251017509375101750942510175094751017509525101750957510175))))
 (.node 4 (.node 2 (.node 1 (.leaf 962510175107251017510775101751082510175108751017510975101751102510175113751017516375101751642510175164751017516525101751657510175166251017516675101751672510175167751017516825101751687510175169251017516975101751702510175170751017517125101751717510175172251017517275101751732510175173751017517425101751747510175175251017517575101751762510175176751017517725101751777510175178251017517875101751792510175179751017518025101751807510175181251017518175101751822510175182751017518325101751837510175184251017518475101751852510175185751017518625101751867510175187251017518775101751882510175188751017518925101751897510175190251017519075101751912510175)
 (.leaf 1917510175192251017519275101751932510175193751017519425101751947510175195251017519575101751962510175196751017519725101751977510175198251017519875101751992510175199751017520025101752007510175201251017520175101752022510175202751017520325101752037510175204251017520475101752052510175205751017520625101752067510175207251017520775101752082510175208751017520925101752097510175210251017521075101752112510175211751017521225101752127510175213251017521375101752142510175214751017521525101752157510175216251017521675101752172510175217751017521825101752187510175219251017521975101752202510175220751017522125101752217510175222251017522275101752232510175))
 (.node 1 (.leaf 2302510175230751017523125101752552510175255751017525625101752567510175257251017525775101752582510175258751017525925101752597510175272751017527825101752787510175279251017527975101752822510175282751017528325101752837510175284251017528475101752852510175285751017528625101752867510175287251017528775101752882510175288751017528925101752997510175300251017530175101753022510175302751017530375101753042510175304751017530525101750937510125094251012509475101250952510125095751012509625101251057510125106251012510675101251072510125107751012510825101251087510125109251012510975101251102510125110751012511125101251162510125119251012516375101251642510125)
 (.leaf 1647510125165251012516575101251662510125166751012516725101251677510125168251012516875101251692510125169751012517025101251707510125171251012517175101251722510125172751012517325101251737510125174251012517475101251752510125175751012517625101251767510125177251012517775101251782510125178751012517925101251797510125180251012518075101251812510125181751012518225101251827510125183251012518375101251842510125184751012518525101251857510125186251012518675101251872510125187751012518825101251887510125189251012518975101251902510125190751012519125101251917510125192251012519275101251932510125193751012519425101251947510125195251012519575101251962510125)))
 (.node 2 (.node 1 (.leaf 1967510125197251012519775101251982510125198751012519925101251997510125200251012520075101252012510125201751012520225101252027510125203251012520375101252042510125204751012520525101252057510125206251012520675101252072510125207751012520825101252087510125209251012520975101252102510125210751012521125101252117510125212251012521275101252132510125213751012521425101252147510125215251012521575101252162510125216751012521725101252177510125218251012521875101252192510125219751012522025101252207510125221251012522175101252222510125222751012522325101252237510125227251012522775101252282510125228751012522925101252297510125230251012523075101252312510125)
 (.leaf 2527510125255751012525625101252567510125257251012525775101252582510125258751012525925101252597510125278251012527875101252792510125279751012528325101252837510125284251012528475101252852510125285751012528625101252867510125287251012528775101252882510125288751012529925101252997510125302251012530275101253032510125304251012530475101253052510125305751012534225101253497510125094251007509475100750952510075095751007509625100751047510075105251007510575100751062510075106751007510725100751077510075108251007510875100751092510075109751007511025100751107510075111251007511175100751122510075112751007511325100751137510075115751007511625100751167510075))
 (.node 1 (.leaf 1172510075117751007511825100751187510075164751007516525100751657510075166251007516675100751672510075167751007516825100751687510075169251007516975100751702510075170751007517125100751717510075172251007517275100751732510075173751007517425100751747510075175251007517575100751762510075176751007517725100751777510075178251007517875100751792510075179751007518025100751807510075181251007518175100751822510075182751007518325100751837510075184251007518475100751852510075185751007518625100751867510075187251007518775100751882510075188751007518925100751897510075190251007519075100751912510075191751007519225100751927510075193251007519375100751942510075)
 (.leaf 1947510075195251007519575100751962510075196751007519725100751977510075198251007519875100751992510075199751007520025100752007510075201251007520175100752022510075202751007520325100752037510075204251007520475100752052510075205751007520625100752067510075207251007520775100752082510075208751007520925100752097510075210251007521075100752112510075211751007521225100752127510075213251007521375100752142510075214751007521525100752157510075216251007521675100752172510075217751007521825100752187510075219251007521975100752202510075220751007522125100752217510075222251007522275100752232510075223751007522425100752252510075225751007522625100752267510075)))))
 (.node 8 (.node 4 (.node 2 (.node 1 (.leaf 2272510075227751007522825100752287510075229251007522975100752302510075230751007523125100752557510075256251007525675100752572510075257751007525825100752587510075259251007525975100752722510075278751007527925100752832510075283751007528425100752847510075285251007528575100752862510075286751007528725100752877510075288251007529925100752997510075300751007530125100753022510075302751007530325100753037510075304751007530525100750942510025094751002509525100250957510025096251002509675100251042510025104751002510525100251057510025106251002510675100251072510025107751002510825100251087510025109251002510975100251102510025110751002511125100251117510025)
 (.leaf 1122510025112751002511325100251137510025114251002511475100251152510025115751002511625100251167510025117251002511825100251187510025165251002516575100251662510025166751002516725100251677510025168251002516875100251692510025169751002517025100251707510025171251002517175100251722510025172751002517325100251737510025174251002517475100251752510025175751002517625100251767510025177251002517775100251782510025178751002517925100251797510025180251002518075100251812510025181751002518225100251827510025183251002518375100251842510025184751002518525100251857510025186251002518675100251872510025187751002518825100251887510025189251002518975100251902510025))
 (.node 1 (.leaf 1907510025191251002519175100251922510025192751002519325100251937510025194251002519475100251952510025195751002519625100251967510025197251002519775100251982510025198751002519925100251997510025200251002520075100252012510025201751002520225100252027510025203251002520375100252042510025204751002520525100252057510025206251002520675100252072510025207751002520825100252087510025209251002520975100252102510025210751002521125100252117510025212251002521275100252132510025213751002521425100252147510025215251002521575100252162510025216751002521725100252177510025218251002521875100252192510025219751002522025100252207510025221251002522175100252222510025)
 (.leaf 2227510025223251002522375100252242510025224751002522525100252257510025226251002522675100252272510025227751002522825100252287510025229251002522975100252302510025230751002523125100252562510025256751002525725100252577510025258251002525875100252592510025259751002527875100252792510025283751002528425100252847510025285251002528575100252862510025286751002528725100252987510025299251002529975100253027510025303251002530375100253042510025304751002530525100253057510025319751002509425099750947509975095250997509575099750962509975096750997509725099750977509975104250997510475099751052509975105750997510625099751067509975107250997510775099751087509975)))
 (.node 2 (.node 1 (.leaf 1092509975109750997511025099751107509975111250997511175099751122509975112750997511325099751137509975114250997511475099751152509975115750997511625099751167509975117250997511775099751182509975118750997516625099751667509975167250997516775099751682509975168750997516925099751697509975170250997517075099751712509975171750997517225099751727509975173250997517375099751742509975174750997517525099751757509975176250997517675099751772509975177750997517825099751787509975179250997517975099751802509975180750997518125099751817509975182250997518275099751832509975183750997518425099751847509975185250997518575099751862509975186750997518725099751877509975)
 (.leaf 1882509975188750997518925099751897509975190250997519075099751912509975191750997519225099751927509975193250997519375099751942509975194750997519525099751957509975196250997519675099751972509975197750997519825099751987509975199250997519975099752002509975200750997520125099752017509975202250997520275099752032509975203750997520425099752047509975205250997520575099752062509975206750997520725099752077509975208250997520875099752092509975209750997521025099752107509975211250997521175099752122509975212750997521325099752137509975214250997521475099752152509975215750997521625099752167509975217250997521775099752182509975218750997521925099752197509975))
 (.node 1 (.leaf 2202509975220750997522125099752217509975222250997522275099752232509975223750997522425099752247509975225250997522575099752262509975226750997522725099752277509975228250997522875099752292509975229750997523025099752307509975256250997525675099752572509975257750997525825099752587509975259250997525975099752602509975278250997527875099752792509975284750997528525099752857509975286250997528675099752982509975298750997530225099753027509975303250997530375099753042509975305250997530575099753062509975318250997531975099753407509975341250997509575099250962509925096750992509725099250977509925099750992510025099251007509925101250992510175099251037509925)
 (.leaf 1042509925104750992510525099251057509925106250992510675099251072509925107750992510825099251087509925109250992510975099251102509925110750992511125099251117509925112250992511275099251132509925113750992511425099251147509925115250992511575099251162509925116750992511725099251177509925118250992511875099251192509925166750992516725099251677509925168250992516875099251692509925169750992517025099251707509925171250992517175099251722509925172750992517325099251737509925174250992517475099251752509925175750992517625099251767509925177250992517775099251782509925178750992517925099251797509925180250992518075099251812509925181750992518225099251827509925))))
 (.node 4 (.node 2 (.node 1 (.leaf 1832509925183750992518425099251847509925185250992518575099251862509925186750992518725099251877509925188250992518875099251892509925189750992519025099251907509925191250992519175099251922509925192750992519325099251937509925194250992519475099251952509925195750992519625099251967509925197250992519775099251982509925198750992519925099251997509925200250992520075099252012509925201750992520225099252027509925203250992520375099252042509925204750992520525099252057509925206250992520675099252072509925207750992520825099252087509925209250992520975099252102509925210750992521125099252117509925212250992521275099252132509925213750992521425099252147509925)
 (.leaf 2152509925215750992521625099252167509925217250992521775099252182509925218750992521925099252197509925220250992522075099252212509925221750992522225099252227509925223250992522375099252242509925224750992522525099252257509925226250992522675099252272509925227750992522825099252287509925229250992522975099252302509925230750992525625099252567509925257250992525775099252582509925258750992525925099252597509925260250992526075099252782509925278750992527925099252797509925284750992528525099252857509925286250992529775099252982509925298750992530275099253032509925303750992530475099253057509925306250992531825099253502509925096250987509675098750972509875))
 (.node 1 (.leaf 977509875098250987509875098750992509875099750987510025098751007509875101250987510175098751022509875102750987510325098751037509875104250987510475098751052509875105750987510625098751067509875107250987510775098751082509875108750987510925098751097509875110250987511075098751112509875111750987511225098751127509875113250987511375098751142509875114750987511525098751157509875116250987511675098751172509875117750987511825098751187509875119250987511975098751667509875167250987516775098751682509875168750987516925098751697509875170250987517075098751712509875171750987517225098751727509875173250987517375098751742509875174750987517525098751757509875)
 (.leaf 1762509875176750987517725098751777509875178250987517875098751792509875179750987518025098751807509875181250987518175098751822509875182750987518325098751837509875184250987518475098751852509875185750987518625098751867509875187250987518775098751882509875188750987518925098751897509875190250987519075098751912509875191750987519225098751927509875193250987519375098751942509875194750987519525098751957509875196250987519675098751972509875197750987519825098751987509875199250987519975098752002509875200750987520125098752017509875202250987520275098752032509875203750987520425098752047509875205250987520575098752062509875206750987520725098752077509875)))
 (.node 2 (.node 1 (.leaf 2082509875208750987520925098752097509875210250987521075098752112509875211750987521225098752127509875213250987521375098752142509875214750987521525098752157509875216250987521675098752172509875217750987521825098752187509875219250987521975098752202509875220750987522125098752217509875222250987522275098752232509875223750987522425098752247509875225250987522575098752262509875226750987522725098752277509875228250987522875098752292509875229750987523025098752567509875257250987525775098752582509875259750987526025098752607509875261250987527825098752787509875279250987527975098752847509875285250987529725098752977509875303250987530375098753047509875)
 (.leaf 3052509875305750987530625098753477509875096250982509675098250972509825097750982509825098250987509825099250982509975098251002509825100750982510175098251022509825102750982510325098251037509825104250982510475098251052509825105750982510625098251067509825107250982510775098251082509825108750982510925098251097509825110250982511075098251112509825111750982511225098251127509825113250982511375098251142509825114750982511525098251157509825116250982511675098251172509825117750982511825098251187509825119250982511975098251202509825120750982516675098251672509825167750982516825098251687509825169250982516975098251702509825170750982517125098251717509825))
 (.node 1 (.leaf 1722509825172750982517325098251737509825174250982517475098251752509825175750982517625098251767509825177250982517775098251782509825178750982517925098251797509825180250982518075098251812509825181750982518225098251827509825183250982518375098251842509825184750982518525098251857509825186250982518675098251872509825187750982518825098251887509825189250982518975098251902509825190750982519125098251917509825192250982519275098251932509825193750982519425098251947509825195250982519575098251962509825196750982519725098251977509825198250982519875098251992509825199750982520025098252007509825201250982520175098252022509825202750982520325098252037509825)
 (.leaf 2042509825204750982520525098252057509825206250982520675098252072509825207750982520825098252087509825209250982520975098252102509825210750982521125098252117509825212250982521275098252132509825213750982521425098252147509825215250982521575098252162509825216750982521725098252177509825218250982521875098252192509825219750982522025098252207509825221250982522175098252222509825222750982522325098252237509825224250982522475098252252509825225750982522625098252267509825227250982522775098252282509825228750982522925098252297509825230250982525325098252567509825257250982525775098252582509825259750982526025098252607509825261250982527825098252787509825))))))
 (.node 16 (.node 8 (.node 4 (.node 2 (.node 1 (.leaf 2792509825279750982528025098252972509825302750982530325098253037509825304250982530475098253052509825305750982530625098250982509775098750977509925097750997509775101750977510225097751027509775103250977510375097751042509775104750977510525097751057509775106250977510675097751072509775107750977510825097751087509775109250977510975097751102509775110750977511125097751117509775112250977511275097751132509775113750977511425097751147509775115250977511575097751162509775116750977511725097751177509775118250977511875097751192509775119750977512025097751207509775121250977516725097751677509775168250977516875097751692509775169750977517025097751707509775)
 (.leaf 1712509775171750977517225097751727509775173250977517375097751742509775174750977517525097751757509775176250977517675097751772509775177750977517825097751787509775179250977517975097751802509775180750977518125097751817509775182250977518275097751832509775183750977518425097751847509775185250977518575097751862509775186750977518725097751877509775188250977518875097751892509775189750977519025097751907509775191250977519175097751922509775192750977519325097751937509775194250977519475097751952509775195750977519625097751967509775197250977519775097751982509775198750977519925097751997509775200250977520075097752012509775201750977520225097752027509775))
 (.node 1 (.leaf 2032509775203750977520425097752047509775205250977520575097752062509775206750977520725097752077509775208250977520875097752092509775209750977521025097752107509775211250977521175097752122509775212750977521325097752137509775214250977521475097752152509775215750977521625097752167509775217250977521775097752182509775218750977521925097752197509775220250977522075097752212509775221750977522225097752227509775223250977522375097752242509775224750977522525097752257509775226250977522675097752272509775227750977522825097752287509775229250977522975097752597509775260250977526075097752612509775261750977527825097752787509775279250977527975097752802509775)
 (.leaf 2972509775302250977530275097753032509775303750977530425097753047509775305250977530575097753062509775314750977533175097750992509725099750972510175097251022509725102750972510325097251037509725104250972510475097251052509725105750972510625097251067509725107250972510775097251082509725108750972510925097251097509725110250972511075097251112509725111750972511225097251127509725113250972511375097251142509725114750972511525097251157509725116250972511675097251172509725117750972511825097251187509725119250972511975097251202509725120750972512125097251217509725167250972516775097251682509725168750972516925097251697509725170250972517075097251712509725)))
 (.node 2 (.node 1 (.leaf 1717509725172250972517275097251732509725173750972517425097251747509725175250972517575097251762509725176750972517725097251777509725178250972517875097251792509725179750972518025097251807509725181250972518175097251822509725182750972518325097251837509725184250972518475097251852509725185750972518625097251867509725187250972518775097251882509725188750972518925097251897509725190250972519075097251912509725191750972519225097251927509725193250972519375097251942509725194750972519525097251957509725196250972519675097251972509725197750972519825097251987509725199250972519975097252002509725200750972520125097252017509725202250972520275097252032509725)
 (.leaf 2037509725204250972520475097252052509725205750972520625097252067509725207250972520775097252082509725208750972520925097252097509725210250972521075097252112509725211750972521225097252127509725213250972521375097252142509725214750972521525097252157509725216250972521675097252172509725217750972521825097252187509725219250972521975097252202509725220750972522125097252217509725222250972522275097252232509725223750972522425097252247509725225250972522575097252262509725226750972522725097252277509725228250972522875097252292509725229750972525975097252602509725260750972526125097252617509725273750972527925097252797509725280250972528075097253017509725))
 (.node 1 (.leaf 3022509725302750972530425097253047509725305250972530575097253062509725306750972531425097253147509725323750972532925097253317509725338250972534875097253512509725102250967510275096751032509675103750967510425096751047509675105250967510575096751062509675106750967510725096751077509675108250967510875096751092509675109750967511025096751107509675111250967511175096751122509675112750967511325096751137509675114250967511475096751152509675115750967511625096751167509675117250967511775096751182509675118750967511925096751197509675120250967512075096751212509675121750967512225096751682509675168750967516925096751697509675170250967517075096751712509675)
 (.leaf 1717509675172250967517275096751732509675173750967517425096751747509675175250967517575096751762509675176750967517725096751777509675178250967517875096751792509675179750967518025096751807509675181250967518175096751822509675182750967518325096751837509675184250967518475096751852509675185750967518625096751867509675187250967518775096751882509675188750967518925096751897509675190250967519075096751912509675191750967519225096751927509675193250967519375096751942509675194750967519525096751957509675196250967519675096751972509675197750967519825096751987509675199250967519975096752002509675200750967520125096752017509675202250967520275096752032509675))))
 (.node 4 (.node 2 (.node 1 (.leaf 2037509675204250967520475096752052509675205750967520625096752067509675207250967520775096752082509675208750967520925096752097509675210250967521075096752112509675211750967521225096752127509675213250967521375096752142509675214750967521525096752157509675216250967521675096752172509675217750967521825096752187509675219250967521975096752202509675220750967522125096752217509675222250967522275096752232509675223750967522425096752247509675225250967522575096752262509675226750967522725096752277509675228250967522875096752292509675259750967526025096752607509675261250967526175096752737509675279750967528025096752807509675281250967528175096752967509675)
 (.leaf 2972509675297750967530175096753022509675304250967530475096753052509675306250967531425096753382509675102750962510325096251037509625104250962510475096251052509625105750962510625096251067509625107250962510775096251082509625108750962510925096251097509625110250962511075096251112509625111750962511225096251127509625113250962511375096251142509625114750962511525096251157509625116250962511675096251172509625117750962511825096251187509625119250962511975096251202509625120750962512125096251217509625122250962512275096251692509625169750962517025096251707509625171250962517175096251722509625172750962517325096251737509625174250962517475096251752509625))
 (.node 1 (.leaf 1757509625176250962517675096251772509625177750962517825096251787509625179250962517975096251802509625180750962518125096251817509625182250962518275096251832509625183750962518425096251847509625185250962518575096251862509625186750962518725096251877509625188250962518875096251892509625189750962519025096251907509625191250962519175096251922509625192750962519325096251937509625194250962519475096251952509625195750962519625096251967509625197250962519775096251982509625198750962519925096251997509625200250962520075096252012509625201750962520225096252027509625203250962520375096252042509625204750962520525096252057509625206250962520675096252072509625)
 (.leaf 2077509625208250962520875096252092509625209750962521025096252107509625211250962521175096252122509625212750962521325096252137509625214250962521475096252152509625215750962521625096252167509625217250962521775096252182509625218750962521925096252197509625220250962522075096252212509625221750962522225096252227509625223250962522375096252242509625224750962522525096252257509625226250962522675096252272509625227750962522825096252287509625229250962526025096252607509625261250962526175096252797509625280250962528075096252812509625281750962528225096252962509625296750962529725096252977509625300750962530125096253017509625302250962530425096253047509625)))
 (.node 2 (.node 1 (.leaf 3052509625305750962534075096253517509625102750957510325095751037509575104250957510475095751052509575105750957510625095751067509575107250957510775095751082509575108750957510925095751097509575110250957511075095751112509575111750957511225095751127509575113250957511375095751142509575114750957511525095751157509575116250957511675095751172509575117750957511825095751187509575119250957511975095751202509575120750957512125095751217509575122250957512275095751232509575123750957512425095751247509575125250957512575095751262509575169750957517025095751707509575171250957517175095751722509575172750957517325095751737509575174250957517475095751752509575)
 (.leaf 1757509575176250957517675095751772509575177750957517825095751787509575179250957517975095751802509575180750957518175095751847509575185250957518575095751862509575186750957518725095751877509575188250957518875095751892509575189750957519025095751907509575191250957519175095751922509575192750957519325095751937509575194250957519475095751952509575195750957519625095751967509575197250957519775095751982509575198750957519925095751997509575200250957520075095752012509575201750957520225095752027509575203250957520375095752042509575204750957520525095752057509575206250957520675095752072509575207750957520825095752087509575209250957520975095752102509575))
 (.node 1 (.leaf 2107509575211250957521175095752122509575212750957521325095752137509575214250957521475095752152509575215750957521625095752167509575217250957521775095752182509575218750957521925095752197509575220250957522075095752212509575221750957522225095752227509575223250957522375095752242509575224750957522525095752257509575226250957522675095752272509575227750957522825095752287509575260250957526075095752752509575275750957528025095752807509575281250957528175095752822509575282750957529575095752962509575296750957529725095752977509575298250957529875095753007509575301250957530475095753052509575305750957533375095753497509575102750952510325095251037509525)
 (.leaf 1042509525104750952510525095251057509525106250952510675095251072509525107750952510825095251087509525109250952510975095251102509525110750952511125095251117509525112250952511275095251132509525113750952511425095251147509525115250952511575095251162509525116750952511725095251177509525118250952511875095251192509525119750952512025095251207509525121250952512175095251222509525122750952512325095251237509525124250952512475095251252509525125750952512625095251267509525127250952517025095251707509525171250952517175095251722509525172750952517325095251737509525174250952517475095251752509525175750952517625095251767509525177250952517775095251782509525)))))
 (.node 8 (.node 4 (.node 2 (.node 1 (.leaf 1787509525179250952517975095251817509525182250952518525095251857509525186250952518675095251872509525187750952518825095251887509525189250952518975095251902509525190750952519125095251917509525192250952519275095251932509525193750952519425095251947509525195250952519575095251962509525196750952519725095251977509525198250952519875095251992509525199750952520025095252007509525201250952520175095252022509525202750952520325095252037509525204250952520475095252052509525205750952520625095252067509525207250952520775095252082509525208750952520925095252097509525210250952521075095252112509525211750952521225095252127509525213250952521375095252142509525)
 (.leaf 2147509525215250952521575095252162509525216750952521725095252177509525218250952521875095252192509525219750952522025095252207509525221250952522175095252222509525222750952522325095252237509525224250952522475095252252509525225750952522625095252267509525227250952522775095252282509525228750952527525095252757509525276250952527675095252772509525277750952528025095252807509525281250952528175095252822509525282750952528325095252952509525295750952529625095252967509525297250952529775095252982509525298750952529925095252997509525300250952533375095253427509525343250952501975094751027509475103250947510375094751042509475104750947510525094751057509475))
 (.node 1 (.leaf 1062509475106750947510725094751077509475108250947510875094751092509475109750947511025094751107509475111250947511175094751122509475112750947511325094751137509475114250947511475094751152509475115750947511625094751167509475117250947511775094751182509475118750947511925094751197509475120250947512075094751212509475121750947512225094751227509475123250947512375094751242509475124750947512525094751257509475126250947512675094751272509475127750947512825094751712509475171750947517225094751727509475173250947517375094751772509475177750947517825094751787509475185250947518575094751862509475186750947518725094751877509475188250947518875094751892509475)
 (.leaf 1897509475190250947519075094751912509475191750947519225094751927509475193250947519375094751942509475194750947519525094751957509475196250947519675094751972509475197750947519825094751987509475199250947519975094752002509475200750947520125094752017509475202250947520275094752032509475203750947520425094752047509475205250947520575094752062509475206750947520725094752077509475208250947520875094752092509475209750947521025094752107509475211250947521175094752122509475212750947521325094752137509475214250947521475094752152509475215750947521625094752167509475217250947521775094752182509475218750947521925094752197509475220250947522075094752212509475)))
 (.node 2 (.node 1 (.leaf 2217509475222250947522275094752232509475223750947522425094752247509475225250947522575094752262509475226750947522725094752277509475228250947527525094752757509475276250947527675094752772509475277750947528025094752807509475281250947528175094752822509475282750947528325094752942509475294750947529525094752957509475296250947529675094752972509475297750947529825094752987509475102750942510325094251037509425104250942510475094251052509425105750942510625094251067509425107250942510775094251082509425108750942510925094251097509425110250942511075094251112509425111750942511225094251127509425113250942511375094251142509425114750942511525094251157509425)
 (.leaf 1162509425116750942511725094251177509425118250942511875094251192509425119750942512025094251207509425121250942512175094251222509425122750942512325094251237509425124250942512475094251252509425125750942512625094251267509425127250942512775094251282509425128750942517225094251727509425185750942518625094251867509425187250942518875094251892509425189750942519025094251907509425191250942519175094251922509425192750942519325094251937509425194250942519475094251952509425195750942519625094251967509425197250942519775094251982509425198750942519925094251997509425200250942520075094252012509425201750942520225094252027509425203250942520375094252042509425))
 (.node 1 (.leaf 2047509425205250942520575094252062509425206750942520725094252077509425208250942520875094252092509425209750942521025094252107509425211250942521175094252122509425212750942521325094252137509425214250942521475094252152509425215750942521625094252167509425217250942521775094252182509425218750942521925094252197509425220250942522075094252212509425221750942522225094252227509425223250942522375094252242509425224750942522525094252257509425226250942522675094252272509425227750942525325094252537509425275750942527625094252767509425277250942527775094252782509425280750942528125094252817509425282250942528275094252832509425288250942529375094252942509425)
 (.leaf 2947509425295250942529575094252962509425296750942529725094252977509425298250942529875094253067509425020750937510275093751032509375103750937510425093751047509375105250937510575093751062509375106750937510725093751077509375108250937510875093751092509375109750937511025093751107509375111250937511175093751122509375112750937511325093751137509375114250937511475093751152509375115750937511625093751167509375117250937511775093751182509375118750937511925093751197509375120250937512075093751212509375121750937512225093751227509375123250937512375093751242509375124750937512525093751257509375126250937512675093751272509375127750937512825093751287509375))))
 (.node 4 (.node 2 (.node 1 (.leaf 1887509375189250937518975093751902509375190750937519125093751917509375192250937519275093751932509375193750937519425093751947509375195250937519575093751962509375196750937519725093751977509375198250937519875093751992509375199750937520025093752007509375201250937520175093752022509375202750937520325093752037509375204250937520475093752052509375205750937520625093752067509375207250937520775093752082509375208750937520925093752097509375210250937521075093752112509375211750937521225093752127509375213250937521375093752142509375214750937521525093752157509375216250937521675093752172509375217750937521825093752187509375219250937521975093752202509375)
 (.leaf 2207509375221250937522175093752222509375222750937522325093752237509375224250937522475093752252509375225750937522625093752267509375227250937527625093752767509375277250937527775093752782509375278750937527925093752807509375281250937528175093752822509375282750937528325093752882509375293250937529375093752942509375294750937529525093752957509375296250937529675093752972509375297750937530525093753057509375334750937533525093751027509325103250932510375093251042509325104750932510525093251057509325106250932510675093251072509325107750932510825093251087509325109250932510975093251102509325110750932511125093251117509325112250932511275093251132509325))
 (.node 1 (.leaf 1137509325114250932511475093251152509325115750932511625093251167509325117250932511775093251182509325118750932511925093251197509325120250932512075093251212509325121750932512225093251227509325123250932512375093251242509325124750932512525093251257509325126250932512675093251272509325127750932512825093251287509325188250932518875093251897509325190250932519075093251912509325191750932519225093251927509325193250932519375093251942509325194750932519525093251957509325196250932519675093251972509325197750932519825093251987509325199250932519975093252002509325200750932520125093252017509325202250932520275093252032509325203750932520425093252047509325)
 (.leaf 2052509325205750932520625093252067509325207250932520775093252082509325208750932520925093252097509325210250932521075093252112509325211750932521225093252127509325213250932521375093252142509325214750932521525093252157509325216250932521675093252172509325217750932521825093252187509325219250932521975093252202509325220750932522125093252217509325222250932522275093252232509325223750932522425093252247509325225250932522575093252262509325226750932527725093252777509325278250932527875093252792509325279750932528125093252817509325282250932528275093252832509325286250932529275093252932509325293750932529425093252947509325295250932529575093252962509325)))
 (.node 2 (.node 1 (.leaf 2967509325297250932529775093253527509325353250932510225092751027509275103250927510375092751042509275104750927510525092751057509275106250927510675092751072509275107750927510825092751087509275109250927510975092751102509275110750927511125092751117509275112250927511275092751132509275113750927511425092751147509275115250927511575092751162509275116750927511725092751177509275118250927511875092751192509275119750927512025092751207509275121250927512175092751222509275122750927512325092751237509275124250927512475092751252509275125750927512625092751267509275127250927512775092751282509275128750927512925092751897509275190250927519075092751912509275)
 (.leaf 1917509275192250927519275092751932509275193750927519425092751947509275195250927519575092751962509275196750927519725092751977509275198250927519875092751992509275199750927520025092752007509275201250927520175092752022509275202750927520325092752037509275204250927520475092752052509275205750927520625092752067509275207250927520775092752082509275208750927520925092752097509275210250927521075092752112509275211750927521225092752127509275213250927521375092752142509275214750927521525092752157509275216250927521675092752172509275217750927521825092752187509275219250927521975092752202509275220750927522125092752217509275222250927522275092752232509275))
 (.node 1 (.leaf 2237509275224250927522475092752252509275225750927522625092752267509275275750927527625092752772509275277750927527825092752787509275279250927527975092752802509275281250927528175092752822509275282750927528325092752837509275291750927529225092752927509275293250927529375092752942509275294750927529525092752957509275296250927529675092752972509275297750927502225092250227509225101250922510175092251022509225102750922510325092251037509225104250922510475092251052509225105750922510625092251067509225107250922510775092251082509225108750922510925092251097509225110250922511075092251112509225111750922511225092251127509225113250922511375092251142509225)
 (.leaf 1147509225115250922511575092251162509225116750922511725092251177509225118250922511875092251192509225119750922512025092251207509225121250922512175092251222509225122750922512325092251237509225124250922512475092251252509225125750922512625092251267509225127250922512775092251282509225128750922512925092251297509225189750922519025092251907509225191250922519175092251922509225192750922519325092251937509225194250922519475092251952509225195750922519625092251967509225197250922519775092251982509225198750922519925092251997509225200250922520075092252012509225201750922520225092252027509225203250922520375092252042509225204750922520525092252057509225)))))))
 (.node 32 (.node 16 (.node 8 (.node 4 (.node 2 (.node 1 (.leaf 2062509225206750922520725092252077509225208250922520875092252092509225209750922521025092252107509225211250922521175092252122509225212750922521325092252137509225214250922521475092252152509225215750922521625092252167509225217250922521775092252182509225218750922521925092252197509225220250922522075092252212509225221750922522225092252227509225223250922522375092252242509225224750922522525092252257509225276250922527775092252782509225278750922527925092252797509225280250922528075092252812509225281750922528225092252827509225283250922528375092252912509225291750922529225092252927509225293250922529375092252942509225294750922529525092252957509225)
 (.leaf 2962509225296750922529725092252977509225307750922530825092253087509225022250917502275091751012509175101750917510225091751027509175103250917510375091751042509175104750917510525091751057509175106250917510675091751072509175107750917510825091751087509175109250917510975091751102509175110750917511125091751117509175112250917511275091751132509175113750917511425091751147509175115250917511575091751162509175116750917511725091751177509175118250917511875091751192509175119750917512025091751207509175121250917512175091751222509175122750917512325091751237509175124250917512475091751252509175125750917512625091751267509175127250917512775091751282509175))
 (.node 1 (.leaf 1287509175129250917512975091751872509175189750917519025091751907509175191250917519175091751922509175192750917519325091751937509175194250917519475091751952509175195750917519625091751967509175197250917519775091751982509175198750917519925091751997509175200250917520075091752012509175201750917520225091752027509175203250917520375091752042509175204750917520525091752057509175206250917520675091752072509175207750917520825091752087509175209250917520975091752102509175210750917521125091752117509175212250917521275091752132509175213750917521425091752147509175215250917521575091752162509175216750917521725091752177509175218250917521875091752192509175)
 (.leaf 2197509175220250917522075091752212509175221750917522225091752227509175223250917522375091752242509175224750917522525091752782509175278750917527925091752797509175280250917528075091752812509175281750917528275091752832509175283750917528425091752892509175289750917529025091752907509175291250917529175091752922509175292750917529325091752937509175294250917529475091752952509175295750917529625091752967509175297250917529775091752982509175304750917530525091753077509175353250917510025091251007509125101250912510175091251022509125102750912510325091251037509125104250912510475091251052509125105750912510625091251067509125107250912510775091251082509125)))
 (.node 2 (.node 1 (.leaf 1087509125109250912510975091251102509125110750912511125091251117509125112250912511275091251132509125113750912511425091251147509125115250912511575091251162509125116750912511725091251177509125118250912511875091251192509125119750912512025091251207509125121250912512175091251222509125122750912512325091251237509125124250912512475091251252509125125750912512625091251267509125127250912512775091251282509125128750912512925091251297509125189250912518975091251902509125190750912519125091251917509125192250912519275091251932509125193750912519425091251947509125195250912519575091251962509125196750912519725091251977509125198250912519875091251992509125)
 (.leaf 1997509125200250912520075091252012509125201750912520225091252027509125203250912520375091252042509125204750912520525091252057509125206250912520675091252072509125207750912520825091252087509125209250912520975091252102509125210750912521125091252117509125212250912521275091252132509125213750912521425091252147509125215250912521575091252162509125216750912521725091252177509125218250912521875091252192509125219750912522025091252207509125221250912522175091252222509125222750912522325091252237509125224250912522475091252772509125277750912527875091252792509125279750912528025091252807509125281250912528175091252822509125282750912528325091252837509125))
 (.node 1 (.leaf 2842509125284750912528925091252897509125290250912529075091252912509125291750912529225091252927509125293250912529375091252942509125294750912529525091252957509125296250912529675091252972509125297750912529825091252987509125300750912530125091253042509125304750912530525091253072509125307750912530825091253087509125334750912535275091253532509125099750907510025090751007509075101250907510175090751022509075102750907510325090751037509075104250907510475090751052509075105750907510625090751067509075107250907510775090751082509075108750907510925090751097509075110250907511075090751112509075111750907511225090751127509075113250907511375090751142509075)
 (.leaf 1147509075115250907511575090751162509075116750907511725090751177509075118250907511875090751192509075119750907512025090751207509075121250907512175090751222509075122750907512325090751237509075124250907512475090751252509075125750907512625090751267509075127250907512775090751282509075128750907512925090751297509075189250907518975090751902509075190750907519125090751917509075192250907519275090751932509075193750907519425090751947509075195250907519575090751962509075196750907519725090751977509075198250907519875090751992509075199750907520025090752007509075201250907520175090752022509075202750907520325090752037509075204250907520475090752052509075))))
 (.node 4 (.node 2 (.node 1 (.leaf 2057509075206250907520675090752072509075207750907520825090752087509075209250907520975090752102509075210750907521125090752117509075212250907521275090752132509075213750907521425090752147509075215250907521575090752162509075216750907521725090752177509075218250907521875090752192509075219750907522025090752207509075221250907522175090752222509075222750907522325090752237509075277250907527775090752792509075279750907528025090752807509075281250907528175090752822509075282750907528325090752837509075284250907528475090752887509075289250907528975090752902509075290750907529125090752917509075292250907529275090752932509075293750907529425090752947509075)
 (.leaf 2952509075295750907529625090752967509075297250907529775090752982509075298750907530025090753007509075301250907530175090753022509075302750907530325090753037509075304250907530475090753072509075307750907530825090753142509075353250907509975090251002509025100750902510125090251017509025102250902510275090251032509025103750902510425090251047509025105250902510575090251062509025106750902510725090251077509025108250902510875090251092509025109750902511025090251107509025111250902511175090251122509025112750902511325090251137509025114250902511475090251152509025115750902511625090251167509025117250902511775090251182509025118750902511925090251197509025))
 (.node 1 (.leaf 1202509025120750902512125090251217509025122250902512275090251232509025123750902512425090251247509025125250902512575090251262509025126750902512725090251277509025128250902512875090251292509025129750902513025090251862509025186750902518925090251897509025190250902519075090251912509025191750902519225090251927509025193250902519375090251942509025194750902519525090251957509025196250902519675090251972509025197750902519825090251987509025199250902519975090252002509025200750902520125090252017509025202250902520275090252032509025203750902520425090252047509025205250902520575090252062509025206750902520725090252077509025208250902520875090252092509025)
 (.leaf 2097509025210250902521075090252112509025211750902521225090252127509025213250902521375090252142509025214750902521525090252157509025216250902521675090252172509025217750902521825090252187509025219250902521975090252202509025220750902522125090252217509025222250902522275090252232509025279250902527975090252802509025280750902528125090252817509025282250902528275090252832509025283750902528875090252892509025289750902529025090252907509025291250902529175090252922509025292750902529325090252937509025294250902529475090252952509025295750902529625090252967509025297250902529775090252997509025300250902530075090253012509025301750902530225090253027509025)))
 (.node 2 (.node 1 (.leaf 3032509025303750902530425090253072509025307750902530825090253087509025353250902535375090250882508975088750897508925089750997508975100250897510075089751012508975101750897510225089751027508975103250897510375089751042508975104750897510525089751057508975106250897510675089751072508975107750897510825089751087508975109250897510975089751102508975110750897511125089751117508975112250897511275089751132508975113750897511425089751147508975115250897511575089751162508975116750897511725089751177508975118250897511875089751192508975119750897512025089751207508975121250897512175089751222508975122750897512325089751237508975124250897512475089751252508975)
 (.leaf 1257508975126250897512675089751272508975127750897512825089751287508975129250897512975089751302508975130750897513125089751317508975189250897518975089751902508975190750897519125089751917508975192250897519275089751932508975193750897519425089751947508975195250897519575089751962508975196750897519725089751977508975198250897519875089751992508975199750897520025089752007508975201250897520175089752022508975202750897520325089752037508975204250897520475089752052508975205750897520625089752067508975207250897520775089752082508975208750897520925089752097508975210250897521075089752112508975211750897521225089752127508975213250897521375089752142508975))
 (.node 1 (.leaf 2147508975215250897521575089752162508975216750897521725089752177508975218250897521875089752192508975219750897522025089752207508975221250897522175089752222508975222750897527825089752797508975280250897528075089752812508975281750897528225089752827508975283250897528375089752842508975284750897528925089752897508975290250897529075089752912508975291750897529225089752927508975293250897529375089752942508975294750897529525089752957508975296250897529675089752972508975299750897530175089753072508975307750897531025089753107508975311250897531225089753127508975088750892508925089250897508925090250892509925089250997508925100250892510075089251012508925)
 (.leaf 1017508925102250892510275089251032508925103750892510425089251047508925105250892510575089251062508925106750892510725089251077508925108250892510875089251092508925109750892511025089251107508925111250892511175089251122508925112750892511325089251137508925114250892511475089251152508925115750892511625089251167508925117250892511775089251182508925118750892511925089251197508925120250892512075089251212508925121750892512225089251227508925123250892512375089251242508925124750892512525089251257508925126250892512675089251272508925127750892512825089251287508925129250892512975089251302508925130750892513125089251317508925132250892513275089251332508925)))))
 (.node 8 (.node 4 (.node 2 (.node 1 (.leaf 1887508925189250892518975089251902508925190750892519125089251917508925192250892519275089251932508925193750892519425089251947508925195250892519575089251962508925196750892519725089251977508925198250892519875089251992508925199750892520025089252007508925201250892520175089252022508925202750892520325089252037508925204250892520475089252052508925205750892520625089252067508925207250892520775089252082508925208750892520925089252097508925210250892521075089252112508925211750892521225089252127508925213250892521375089252142508925214750892521525089252157508925216250892521675089252172508925217750892521825089252187508925219250892521975089252202508925)
 (.leaf 2207508925221250892522175089252222508925253250892528025089252807508925281250892528175089252822508925282750892528325089252837508925284250892528475089252892508925289750892529025089252907508925291250892529175089252922508925292750892529325089252937508925294250892529475089252952508925295750892529625089252967508925297250892529775089252997508925300250892530175089253022508925302750892530325089253072508925307750892530825089253107508925311250892531175089253122508925312750892531325089253137508925314250892531525089253157508925316250892534675089253497508925354250892508875088750992508875099750887510025088751007508875101250887510175088751022508875))
 (.node 1 (.leaf 1027508875103250887510375088751042508875104750887510525088751057508875106250887510675088751072508875107750887510825088751087508875109250887510975088751102508875110750887511125088751117508875112250887511275088751132508875113750887511425088751147508875115250887511575088751162508875116750887511725088751177508875118250887511875088751192508875119750887512025088751207508875121250887512175088751222508875122750887512325088751237508875124250887512475088751252508875125750887512625088751267508875127250887512775088751282508875128750887512925088751297508875130250887513075088751312508875131750887513225088751327508875133250887513375088751342508875)
 (.leaf 1347508875188750887518925088751897508875190250887519075088751912508875191750887519225088751927508875193250887519375088751942508875194750887519525088751957508875196250887519675088751972508875197750887519825088751987508875199250887519975088752002508875200750887520125088752017508875202250887520275088752032508875203750887520425088752047508875205250887520575088752062508875206750887520725088752077508875208250887520875088752092508875209750887521025088752107508875211250887521175088752122508875212750887521325088752137508875214250887521475088752152508875215750887521625088752167508875217250887521775088752182508875218750887521925088752197508875)))
 (.node 2 (.node 1 (.leaf 2202508875220750887522125088752217508875278750887527925088752802508875280750887528125088752817508875282250887528275088752832508875283750887528425088752892508875289750887529025088752907508875291250887529175088752922508875292750887529325088752937508875294250887529475088752952508875295750887529625088752967508875297250887529925088752997508875300250887530075088753012508875301750887530225088753027508875303250887530775088753097508875310750887531125088753117508875312250887531275088753132508875313750887531425088753147508875315750887531625088753297508875354750887535525088753557508875356250887509925088250997508825100250882510075088251012508825)
 (.leaf 1017508825102250882510275088251032508825103750882510425088251047508825105250882510575088251062508825106750882510725088251077508825108250882510875088251092508825109750882511025088251107508825111250882511175088251122508825112750882511325088251137508825114250882511475088251152508825115750882511625088251167508825117250882511775088251182508825118750882511925088251197508825120250882512075088251212508825121750882512225088251227508825123250882512375088251242508825124750882512525088251257508825126250882512675088251272508825127750882512825088251287508825129250882512975088251302508825130750882513125088251317508825132250882513275088251332508825))
 (.node 1 (.leaf 1337508825134250882513475088251352508825189250882518975088251902508825190750882519125088251917508825192250882519275088251932508825193750882519425088251947508825195250882519575088251962508825196750882519725088251977508825198250882519875088251992508825199750882520025088252007508825201250882520175088252022508825202750882520325088252037508825204250882520475088252052508825205750882520625088252067508825207250882520775088252082508825208750882520925088252097508825210250882521075088252112508825211750882521225088252127508825213250882521375088252142508825214750882521525088252157508825216250882521675088252172508825217750882521825088252187508825)
 (.leaf 2192508825219750882522025088252207508825221250882522175088252787508825279250882528075088252812508825281750882528225088252827508825283250882528375088252842508825284750882528525088252857508825286250882528975088252902508825290750882529125088252917508825292250882529275088252932508825293750882529425088252947508825295250882529575088252962508825296750882529925088252997508825300250882530075088253012508825301750882530225088253027508825304250882530475088253052508825305750882530625088253072508825307750882530825088253097508825310250882531175088253122508825312750882531325088253137508825314250882531525088253157508825316250882531675088253172508825))))
 (.node 4 (.node 2 (.node 1 (.leaf 3177508825318250882531875088253227508825329750882534575088253552508825098750877509925087750997508775100250877510075087751012508775101750877510225087751027508775103250877510375087751042508775104750877510525087751057508775106250877510675087751072508775107750877510825087751087508775109250877510975087751102508775110750877511125087751117508775112250877511275087751132508775113750877511425087751147508775115250877511575087751162508775116750877511725087751177508775118250877511875087751192508775119750877512025087751207508775121250877512175087751222508775122750877512325087751237508775124250877512475087751252508775125750877512625087751267508775)
 (.leaf 1272508775127750877512825087751287508775129250877512975087751302508775130750877513125087751317508775132250877513275087751332508775133750877513425087751347508775135250877513575087751367508775189750877519025087751907508775191250877519175087751922508775192750877519325087751937508775194250877519475087751952508775195750877519625087751967508775197250877519775087751982508775198750877519925087751997508775200250877520075087752012508775201750877520225087752027508775203250877520375087752042508775204750877520525087752057508775206250877520675087752072508775207750877520825087752087508775209250877520975087752102508775210750877521125087752117508775))
 (.node 1 (.leaf 2122508775212750877521325087752137508775214250877521475087752152508775215750877521625087752167508775217250877521775087752182508775218750877521925087752197508775220250877522075087752212508775279750877528075087752812508775281750877528225087752827508775283250877528375087752842508775284750877528525087752857508775286250877529025087752907508775291250877529175087752922508775292750877529325087752937508775294250877529475087752952508775295750877529625087752967508775299250877529975087753002508775300750877530125087753017508775304250877530575087753062508775309750877531025087753122508775312750877531325087753137508775314250877531625087753167508775)
 (.leaf 3172508775317750877531825087753187508775319250877531975087753202508775320750877532675087753272508775327750877533025087753557508775356250877500825087250992508725099750872510025087251007508725101250872510175087251022508725102750872510325087251037508725104250872510475087251052508725105750872510625087251067508725107250872510775087251082508725108750872510925087251097508725110250872511075087251112508725111750872511225087251127508725113250872511375087251142508725114750872511525087251157508725116250872511675087251172508725117750872511825087251187508725119250872511975087251202508725120750872512125087251217508725122250872512275087251232508725)))
 (.node 2 (.node 1 (.leaf 1237508725124250872512475087251252508725125750872512625087251267508725127250872512775087251282508725128750872512925087251297508725130250872513075087251312508725131750872513225087251327508725133250872513375087251342508725134750872513525087251357508725136250872513675087251372508725137750872513825087251387508725139250872513975087251402508725189750872519025087251907508725191250872519175087251922508725192750872519325087251937508725194250872519475087251952508725195750872519625087251967508725197250872519775087251982508725198750872519925087251997508725200250872520075087252012508725201750872520225087252027508725203250872520375087252042508725)
 (.leaf 2047508725205250872520575087252062508725206750872520725087252077508725208250872520875087252092508725209750872521025087252107508725211250872521175087252122508725212750872521325087252137508725214250872521475087252152508725215750872521625087252167508725217250872521775087252182508725218750872521925087252197508725220250872522075087252802508725281250872528175087252822508725282750872528325087252837508725284250872528475087252852508725285750872528625087252867508725287750872528825087252902508725290750872529125087252917508725292250872529275087252932508725293750872529425087252947508725295250872529575087252962508725298750872529925087252997508725))
 (.node 1 (.leaf 3002508725300750872530125087253017508725302250872530825087253087508725309250872530975087253122508725312750872531325087253137508725314250872531475087253162508725316750872531725087253177508725318250872531875087253192508725319750872532025087253207508725321250872532175087253302508725330750872533125087253557508725356250872535675087250997508675100250867510075086751012508675101750867510225086751027508675103250867510375086751042508675104750867510525086751057508675106250867510675086751072508675107750867510825086751087508675109250867510975086751102508675110750867511125086751117508675112250867511275086751132508675113750867511425086751147508675)
 (.leaf 1152508675115750867511625086751167508675117250867511775086751182508675118750867511925086751197508675120250867512075086751212508675121750867512225086751227508675123250867512375086751242508675124750867512525086751257508675126250867512675086751272508675127750867512825086751287508675129250867512975086751302508675130750867513125086751317508675132250867513275086751332508675133750867513425086751347508675135250867513575086751362508675136750867513725086751377508675138250867513875086751392508675139750867514025086751407508675190250867519075086751912508675191750867519225086751927508675193250867519375086751942508675194750867519525086751957508675))))))
 (.node 16 (.node 8 (.node 4 (.node 2 (.node 1 (.leaf 1962508675196750867519725086751977508675198250867519875086751992508675199750867520025086752007508675201250867520175086752022508675202750867520325086752037508675204250867520475086752052508675205750867520625086752067508675207250867520775086752082508675208750867520925086752097508675210250867521075086752112508675211750867521225086752127508675213250867521375086752142508675214750867521525086752157508675216250867521675086752172508675217750867521825086752187508675219250867521975086752202508675280250867528175086752822508675282750867528325086752837508675284250867528475086752852508675285750867528675086752877508675288250867529075086752912508675)
 (.leaf 2917508675292250867529275086752932508675293750867529425086752947508675295250867529575086752962508675298750867529925086752997508675300250867530075086753012508675301750867530225086753062508675306750867530725086753077508675308250867530875086753092508675309750867531025086753107508675312250867531275086753132508675313750867531425086753147508675315250867531575086753162508675316750867531725086753177508675318250867531875086753192508675319750867532025086753207508675321250867532175086753222508675322750867532325086753312508675331750867533225086753347508675024750862502525086250992508625099750862510025086251007508625101250862510175086251022508625))
 (.node 1 (.leaf 1027508625103250862510375086251042508625104750862510525086251057508625106250862510675086251072508625107750862510825086251087508625109250862510975086251102508625110750862511125086251117508625112250862511275086251132508625113750862511425086251147508625115250862511575086251162508625116750862511725086251177508625118250862511875086251192508625119750862512025086251207508625121250862512175086251222508625122750862512325086251237508625124250862512475086251252508625125750862512625086251267508625127250862512775086251282508625128750862512925086251297508625130250862513075086251312508625131750862513225086251327508625133250862513375086251342508625)
 (.leaf 1347508625135250862513575086251362508625136750862513725086251377508625138250862513875086251392508625139750862514025086251407508625141250862514175086251477508625190750862519125086251917508625192250862519275086251932508625193750862519425086251947508625195250862519575086251962508625196750862519725086251977508625198250862519875086251992508625199750862520025086252007508625201250862520175086252022508625202750862520325086252037508625204250862520475086252052508625205750862520625086252067508625207250862520775086252082508625208750862520925086252097508625210250862521075086252112508625211750862521225086252127508625213250862521375086252142508625)))
 (.node 2 (.node 1 (.leaf 2147508625215250862521575086252162508625216750862521725086252177508625218250862521875086252192508625219750862528225086252827508625283250862528375086252842508625284750862528525086252857508625291750862529475086252952508625295750862529625086252987508625299250862529975086253002508625300750862530125086253017508625302250862530275086253062508625306750862530725086253082508625310250862531075086253127508625313250862531375086253142508625314750862531525086253157508625316250862531675086253172508625317750862531825086253187508625319250862531975086253202508625320750862532125086253217508625322250862532275086253232508625323750862532425086253322508625)
 (.leaf 3327508625024750857502525085750987508575099250857509975085751002508575100750857510125085751017508575102250857510275085751032508575103750857510425085751047508575105250857510575085751062508575106750857510725085751077508575108250857510875085751092508575109750857511025085751107508575111250857511175085751122508575112750857511325085751137508575114250857511475085751152508575115750857511625085751167508575117250857511775085751182508575118750857511925085751197508575120250857512075085751212508575121750857512225085751227508575123250857512375085751242508575124750857512525085751257508575126250857512675085751272508575127750857512825085751287508575))
 (.node 1 (.leaf 1292508575129750857513025085751307508575131250857513175085751322508575132750857513325085751337508575134250857513475085751352508575135750857513625085751367508575137250857513775085751382508575138750857513925085751397508575140250857514075085751412508575141750857514225085751912508575191750857519225085751927508575193250857519375085751942508575194750857519525085751957508575196250857519675085751972508575197750857519825085751987508575199250857519975085752002508575200750857520125085752017508575202250857520275085752032508575203750857520425085752047508575205250857520575085752062508575206750857520725085752077508575208250857520875085752092508575)
 (.leaf 2097508575210250857521075085752112508575211750857521225085752127508575213250857521375085752142508575214750857521525085752157508575216250857521675085752172508575217750857521825085752187508575219250857521975085752202508575282250857528275085752832508575283750857528425085752847508575285250857528575085752947508575296250857529975085753002508575301750857530225085753027508575303250857531275085753132508575314750857531525085753157508575316250857531675085753172508575317750857531825085753187508575319250857531975085753202508575320750857532125085753217508575322250857532275085753232508575323750857532425085753247508575325250857533175085753322508575))))
 (.node 4 (.node 2 (.node 1 (.leaf 3327508575333250857500525085250987508525099250852509975085251002508525100750852510125085251017508525102250852510275085251032508525103750852510425085251047508525105250852510575085251062508525106750852510725085251077508525108250852510875085251092508525109750852511025085251107508525111250852511175085251122508525112750852511325085251137508525114250852511475085251152508525115750852511625085251167508525117250852511775085251182508525118750852511925085251197508525120250852512075085251212508525121750852512225085251227508525123250852512375085251242508525124750852512525085251257508525126250852512675085251272508525127750852512825085251287508525)
 (.leaf 1292508525129750852513025085251307508525131250852513175085251322508525132750852513325085251337508525134250852513475085251352508525135750852513625085251367508525137250852513775085251382508525138750852513925085251397508525140250852514075085251412508525141750852514225085251427508525191750852519225085251927508525193250852519375085251942508525194750852519525085251957508525196250852519675085251972508525197750852519825085251987508525199250852519975085252002508525200750852520125085252017508525202250852520275085252032508525203750852520425085252047508525205250852520575085252062508525206750852520725085252077508525208250852520875085252092508525))
 (.node 1 (.leaf 2097508525210250852521075085252112508525211750852521225085252127508525213250852521375085252142508525214750852521525085252157508525216250852521675085252172508525217750852521825085252187508525219250852523525085252357508525283250852528375085252842508525284750852528525085252857508525299750852530025085253017508525302250852530275085253032508525309750852531625085253167508525317250852531775085253182508525318750852531925085253197508525320250852532075085253212508525321750852532225085253227508525323250852532375085253242508525324750852532525085253257508525326250852532925085253317508525332250852533275085253367508525337250852509875084750992508475)
 (.leaf 997508475100250847510075084751012508475101750847510225084751027508475103250847510375084751042508475104750847510525084751057508475106250847510675084751072508475107750847510825084751087508475109250847510975084751102508475110750847511125084751117508475112250847511275084751132508475113750847511425084751147508475115250847511575084751162508475116750847511725084751177508475118250847511875084751192508475119750847512025084751207508475121250847512175084751222508475122750847512325084751237508475124250847512475084751252508475125750847512625084751267508475127250847512775084751282508475128750847512925084751297508475130250847513075084751312508475)))
 (.node 2 (.node 1 (.leaf 1317508475132250847513275084751332508475133750847513425084751347508475135250847513575084751362508475136750847513725084751377508475138250847513875084751392508475139750847514025084751407508475141250847514175084751422508475142750847514325084751437508475144250847514475084751922508475192750847519325084751937508475194250847519475084751952508475195750847519625084751967508475197250847519775084751982508475198750847519925084751997508475200250847520075084752012508475201750847520225084752027508475203250847520375084752042508475204750847520525084752057508475206250847520675084752072508475207750847520825084752087508475209250847520975084752102508475)
 (.leaf 2107508475211250847521175084752122508475212750847521325084752137508475214250847521475084752152508475215750847521625084752167508475217250847521775084752182508475218750847521925084752197508475282250847528375084752842508475284750847528525084752857508475299250847529975084753002508475301750847530225084753027508475303250847531725084753177508475318250847531875084753192508475319750847532025084753207508475321250847532175084753222508475322750847532325084753237508475324250847532475084753252508475325750847532725084753302508475331250847533175084753322508475334750847509875084250992508425099750842510025084251007508425101250842510175084251022508425))
 (.node 1 (.leaf 1027508425103250842510375084251042508425104750842510525084251057508425106250842510675084251072508425107750842510825084251087508425109250842510975084251102508425110750842511125084251117508425112250842511275084251132508425113750842511425084251147508425115250842511575084251162508425116750842511725084251177508425118250842511875084251192508425119750842512025084251207508425121250842512175084251222508425122750842512325084251237508425124250842512475084251252508425125750842512625084251267508425127250842512775084251282508425128750842512925084251297508425130250842513075084251312508425131750842513225084251327508425133250842513375084251342508425)
 (.leaf 1347508425135250842513575084251362508425136750842513725084251377508425138250842513875084251392508425139750842514025084251407508425141250842514175084251422508425142750842514325084251437508425144250842514475084251922508425192750842519325084251937508425194250842519475084251952508425195750842519625084251967508425197250842519775084251982508425198750842519925084251997508425200250842520075084252012508425201750842520225084252027508425203250842520375084252042508425204750842520525084252057508425206250842520675084252072508425207750842520825084252087508425209250842520975084252102508425210750842521125084252117508425212250842521275084252132508425)))))
 (.node 8 (.node 4 (.node 2 (.node 1 (.leaf 2137508425214250842521475084252152508425215750842521625084252167508425217250842521775084252182508425218750842521925084252842508425284750842528525084252857508425286250842529275084252997508425300250842530275084253127508425314250842531475084253182508425318750842531925084253197508425320250842532075084253212508425321750842532225084253227508425323250842532375084253242508425324750842532525084253257508425326250842532675084253272508425327750842532825084253287508425329250842532975084253302508425330750842533125084253317508425334750842533525084253562508425357250842509875083750992508375099750837510025083751007508375101250837510175083751022508375)
 (.leaf 1027508375103250837510375083751042508375104750837510525083751057508375106250837510675083751072508375107750837510825083751087508375109250837510975083751102508375110750837511125083751117508375112250837511275083751132508375113750837511425083751147508375115250837511575083751162508375116750837511725083751177508375118250837511875083751192508375119750837512025083751207508375121250837512175083751222508375122750837512325083751237508375124250837512475083751252508375125750837512625083751267508375127250837512775083751282508375128750837512925083751297508375130250837513075083751312508375131750837513225083751327508375133250837513375083751342508375))
 (.node 1 (.leaf 1347508375135250837513575083751362508375136750837513725083751377508375138250837513875083751392508375139750837514025083751407508375141250837514175083751422508375142750837514325083751437508375144250837514475083751922508375192750837519325083751937508375194250837519475083751952508375195750837519625083751967508375197250837519775083751982508375198750837519925083751997508375200250837520075083752012508375201750837520225083752027508375203250837520375083752042508375204750837520525083752057508375206250837520675083752072508375207750837520825083752087508375209250837520975083752102508375210750837521125083752117508375212250837521275083752132508375)
 (.leaf 2137508375214250837521475083752152508375215750837521625083752167508375217250837521775083752182508375218750837521925083752197508375285750837528625083752867508375287250837528775083752882508375290750837530025083753142508375314750837531825083753187508375319250837531975083753202508375320750837532125083753217508375322250837532275083753232508375323750837532425083753247508375325250837532575083753262508375326750837532725083753277508375329250837532975083753302508375330750837533475083753352508375335750837535625083753572508375099750832510025083251007508325101250832510175083251022508325102750832510325083251037508325104250832510475083251052508325)))
 (.node 2 (.node 1 (.leaf 1057508325106250832510675083251072508325107750832510825083251087508325109250832510975083251102508325110750832511125083251117508325112250832511275083251132508325113750832511425083251147508325115250832511575083251162508325116750832511725083251177508325118250832511875083251192508325119750832512025083251207508325121250832512175083251222508325122750832512325083251237508325124250832512475083251252508325125750832512625083251267508325127250832512775083251282508325128750832512925083251297508325130250832513075083251312508325131750832513225083251327508325133250832513375083251342508325134750832513525083251357508325136250832513675083251372508325)
 (.leaf 1377508325138250832513875083251392508325139750832514025083251407508325141250832514175083251422508325142750832514325083251437508325144250832514475083251927508325193250832519375083251942508325194750832519525083251957508325196250832519675083251972508325197750832519825083251987508325199250832519975083252002508325200750832520125083252017508325202250832520275083252032508325203750832520425083252047508325205250832520575083252062508325206750832520725083252077508325208250832520875083252092508325209750832521025083252107508325211250832521175083252122508325212750832521325083252137508325214250832521475083252152508325215750832521625083252167508325))
 (.node 1 (.leaf 2172508325217750832521825083252187508325219250832521975083252852508325285750832528625083252867508325287250832528775083252882508325288750832528925083252897508325290250832529075083252912508325291750832529225083252927508325293250832529375083252942508325295250832531425083253187508325319250832531975083253202508325320750832532125083253217508325322250832532275083253232508325323750832532425083253247508325325250832532575083253262508325326750832532725083253277508325335250832533575083253367508325100250827510075082751012508275101750827510225082751027508275103250827510375082751042508275104750827510525082751057508275106250827510675082751072508275)
 (.leaf 1077508275108250827510875082751092508275109750827511025082751107508275111250827511175082751122508275112750827511325082751137508275114250827511475082751152508275115750827511625082751167508275117250827511775082751182508275118750827511925082751197508275120250827512075082751212508275121750827512225082751227508275123250827512375082751242508275124750827512525082751257508275126250827512675082751272508275127750827512825082751287508275129250827512975082751302508275130750827513125082751317508275132250827513275082751332508275133750827513425082751347508275135250827513575082751362508275136750827513725082751377508275138250827513875082751392508275))))
 (.node 4 (.node 2 (.node 1 (.leaf 1397508275140250827514075082751412508275141750827514225082751427508275143250827514375082751442508275144750827514525082751927508275193250827519375082751942508275194750827519525082751957508275196250827519675082751972508275197750827519825082751987508275199250827519975082752002508275200750827520125082752017508275202250827520275082752032508275203750827520425082752047508275205250827520575082752062508275206750827520725082752077508275208250827520875082752092508275209750827521025082752107508275211250827521175082752122508275212750827521325082752137508275214250827521475082752152508275215750827521625082752167508275217250827521775082752182508275)
 (.leaf 2187508275219250827521975082752522508275286250827528675082752872508275287750827528825082752887508275289250827528975082752902508275290750827529125082752917508275292250827529275082752932508275293750827530075082753087508275311250827531175082753182508275318750827531925082753197508275320250827532075082753212508275321750827532225082753227508275323250827532375082753242508275324750827532525082753257508275326250827532675082753272508275335750827533675082753372508275357250827535875082751002508225100750822510125082251017508225102250822510275082251032508225103750822510425082251047508225105250822510575082251062508225106750822510725082251077508225))
 (.node 1 (.leaf 1082508225108750822510925082251097508225110250822511075082251112508225111750822511225082251127508225113250822511375082251142508225114750822511525082251157508225116250822511675082251172508225117750822511825082251187508225119250822511975082251202508225120750822512125082251217508225122250822512275082251232508225123750822512425082251247508225125250822512575082251262508225126750822512725082251277508225128250822512875082251292508225129750822513025082251307508225131250822513175082251322508225132750822513325082251337508225134250822513475082251352508225135750822513625082251367508225137250822513775082251382508225138750822513925082251397508225)
 (.leaf 1402508225140750822514125082251417508225142250822514275082251432508225143750822514425082251447508225145250822516575082251932508225193750822519425082251947508225195250822519575082251962508225196750822519725082251977508225198250822519875082251992508225199750822520025082252007508225201250822520175082252022508225202750822520325082252037508225204250822520475082252052508225205750822520625082252067508225207250822520775082252082508225208750822520925082252097508225210250822521075082252112508225211750822521225082252127508225213250822521375082252142508225214750822521525082252157508225216250822521675082252172508225217750822521825082252187508225)))
 (.node 2 (.node 1 (.leaf 2192508225219750822528725082252877508225288250822528875082252892508225289750822529025082252907508225291250822529175082252922508225292750822529325082252937508225294250822530575082253062508225306750822530975082253112508225311750822531775082253182508225318750822531925082253197508225320250822532075082253212508225321750822532225082253227508225323250822532375082253242508225324750822532525082253257508225326250822532675082253272508225327750822533675082253372508225338250822533875082253392508225358750822500725081750077508175100750817510125081751017508175102250817510275081751032508175103750817510425081751047508175105250817510575081751062508175)
 (.leaf 1067508175107250817510775081751082508175108750817510925081751097508175110250817511075081751112508175111750817511225081751127508175113250817511375081751142508175114750817511525081751157508175116250817511675081751172508175117750817511825081751187508175119250817511975081751202508175120750817512125081751217508175122250817512275081751232508175123750817512425081751247508175125250817512575081751262508175126750817512725081751277508175128250817512875081751292508175129750817513025081751307508175131250817513175081751322508175132750817513325081751337508175134250817513475081751352508175135750817513625081751367508175137250817513775081751382508175))
 (.node 1 (.leaf 1387508175139250817513975081751402508175140750817514125081751417508175142250817514275081751432508175143750817514425081751447508175145250817519325081751937508175194250817519475081751952508175195750817519625081751967508175197250817519775081751982508175198750817519925081751997508175200250817520075081752012508175201750817520225081752027508175203250817520375081752042508175204750817520525081752057508175206250817520675081752072508175207750817520825081752087508175209250817520975081752102508175210750817521125081752117508175212250817521275081752132508175213750817521425081752147508175215250817521575081752162508175216750817521725081752177508175)
 (.leaf 2182508175218750817521925081752902508175290750817529125081752917508175292250817529275081752932508175293750817529425081752947508175295250817529575081752962508175296750817529725081752977508175298250817529875081753002508175300750817530125081753027508175303250817530375081753042508175304750817530525081753062508175306750817530725081753077508175308250817530875081753097508175310750817531125081753177508175318250817531875081753192508175319750817532025081753207508175321250817532175081753222508175322750817532325081753237508175325750817532625081753267508175327250817532775081753282508175337250817533775081753387508175339250817533975081753407508175))))))))
 (.node 64 (.node 32 (.node 16 (.node 8 (.node 4 (.node 2 (.node 1 (.leaf 3592508175007250812500775081250217508125039750812504025081251012508125101750812510225081251027508125103250812510375081251042508125104750812510525081251057508125106250812510675081251072508125107750812510825081251087508125109250812510975081251102508125110750812511125081251117508125112250812511275081251132508125113750812511425081251147508125115250812511575081251162508125116750812511725081251177508125118250812511875081251192508125119750812512025081251207508125121250812512175081251222508125122750812512325081251237508125124250812512475081251252508125125750812512625081251267508125127250812512775081251282508125128750812512925081251297508125)
 (.leaf 1302508125130750812513125081251317508125132250812513275081251332508125133750812513425081251347508125135250812513575081251362508125136750812513725081251377508125138250812513875081251392508125139750812514025081251407508125141250812514175081251422508125142750812514325081251437508125144250812514475081251932508125193750812519425081251947508125195250812519575081251962508125196750812519725081251977508125198250812519875081251992508125199750812520025081252007508125201250812520175081252022508125202750812520325081252037508125204250812520475081252052508125205750812520625081252067508125207250812520775081252082508125208750812520925081252097508125))
 (.node 1 (.leaf 2102508125210750812521125081252117508125212250812521275081252132508125213750812521425081252147508125215250812521575081252162508125216750812521725081252177508125218250812521875081252192508125219750812529375081252942508125294750812529525081252957508125296250812529675081252972508125297750812529825081252987508125299250812529975081253002508125300750812530125081253017508125302250812530275081253032508125304250812530525081253057508125306250812530675081253072508125320250812532075081253212508125321750812532225081253227508125323250812532375081253262508125326750812532725081253277508125328250812533125081253372508125337750812533825081253407508125)
 (.leaf 3412508125359250812500825080750087508075021750807510125080751017508075102250807510275080751032508075103750807510425080751047508075105250807510575080751062508075106750807510725080751077508075108250807510875080751092508075109750807511025080751107508075111250807511175080751122508075112750807511325080751137508075114250807511475080751152508075115750807511625080751167508075117250807511775080751182508075118750807511925080751197508075120250807512075080751212508075121750807512225080751227508075123250807512375080751242508075124750807512525080751257508075126250807512675080751272508075127750807512825080751287508075129250807512975080751302508075)))
 (.node 2 (.node 1 (.leaf 1307508075131250807513175080751322508075132750807513325080751337508075134250807513475080751352508075135750807513625080751367508075137250807513775080751382508075138750807513925080751397508075140250807514075080751412508075141750807514225080751427508075143250807514375080751442508075144750807519325080751937508075194250807519475080751952508075195750807519625080751967508075197250807519775080751982508075198750807519925080751997508075200250807520075080752012508075201750807520225080752027508075203250807520375080752042508075204750807520525080752057508075206250807520675080752072508075207750807520825080752087508075209250807520975080752102508075)
 (.leaf 2107508075211250807521175080752122508075212750807521325080752137508075214250807521475080752152508075215750807521625080752167508075217250807521775080752182508075218750807521925080752197508075226250807529725080752992508075299750807530025080753042508075304750807530525080753057508075306250807532075080753212508075321750807532225080753227508075323250807532675080753272508075327750807532825080753287508075329250807533025080753307508075332750807533975080753402508075340750807534125080750407508025041250802510175080251022508025102750802510325080251037508025104250802510475080251052508025105750802510625080251067508025107250802510775080251082508025))
 (.node 1 (.leaf 1087508025109250802510975080251102508025110750802511125080251117508025112250802511275080251132508025113750802511425080251147508025115250802511575080251162508025116750802511725080251177508025118250802511875080251192508025119750802512025080251207508025121250802512175080251222508025122750802512325080251237508025124250802512475080251252508025125750802512625080251267508025127250802512775080251282508025128750802512925080251297508025130250802513075080251312508025131750802513225080251327508025133250802513375080251342508025134750802513525080251357508025136250802513675080251372508025137750802513825080251387508025139250802513975080251402508025)
 (.leaf 1407508025141250802514175080251422508025142750802514325080251437508025144250802519325080251937508025194250802519475080251952508025195750802519625080251967508025197250802519775080251982508025198750802519925080251997508025200250802520075080252012508025201750802520225080252027508025203250802520375080252042508025204750802520525080252057508025206250802520675080252072508025207750802520825080252087508025209250802520975080252102508025210750802521125080252117508025212250802521275080252132508025213750802521425080252147508025215250802521575080252162508025216750802521725080252177508025218250802521875080252192508025219750802529925080252997508025))))
 (.node 4 (.node 2 (.node 1 (.leaf 3002508025300750802530375080253042508025304750802530525080253272508025327750802532825080253287508025329250802532975080253302508025330750802533125080253397508025340250802534075080253412508025018750797501925079751017507975102250797510275079751032507975103750797510425079751047507975105250797510575079751062507975106750797510725079751077507975108250797510875079751092507975109750797511025079751107507975111250797511175079751122507975112750797511325079751137507975114250797511475079751152507975115750797511625079751167507975117250797511775079751182507975118750797511925079751197507975120250797512075079751212507975121750797512225079751227507975)
 (.leaf 1232507975123750797512425079751247507975125250797512575079751262507975126750797512725079751277507975128250797512875079751292507975129750797513025079751307507975131250797513175079751322507975132750797513325079751337507975134250797513475079751352507975135750797513625079751367507975137250797513775079751382507975138750797513925079751397507975140250797514075079751412507975141750797514225079751427507975143250797514375079751932507975193750797519425079751947507975195250797519575079751962507975196750797519725079751977507975198250797519875079751992507975199750797520025079752007507975201250797520175079752022507975202750797520325079752037507975))
 (.node 1 (.leaf 2042507975204750797520525079752057507975206250797520675079752072507975207750797520825079752087507975209250797520975079752102507975210750797521125079752117507975212250797521275079752132507975213750797521425079752147507975215250797521575079752162507975216750797521725079752177507975218250797521875079752192507975219750797522025079752857507975300250797530075079753017507975303250797530375079753042507975304750797532225079753277507975328250797532875079753292507975329750797533025079753307507975331250797534125079753417507975014250792510225079251027507925103250792510375079251042507925104750792510525079251057507925106250792510675079251072507925)
 (.leaf 1077507925108250792510875079251092507925109750792511025079251107507925111250792511175079251122507925112750792511325079251137507925114250792511475079251152507925115750792511625079251167507925117250792511775079251182507925118750792511925079251197507925120250792512075079251212507925121750792512225079251227507925123250792512375079251242507925124750792512525079251257507925126250792512675079251272507925127750792512825079251287507925129250792512975079251302507925130750792513125079251317507925132250792513275079251332507925133750792513425079251347507925135250792513575079251362507925136750792513725079251377507925138250792513875079251392507925)))
 (.node 2 (.node 1 (.leaf 1397507925140250792514075079251412507925141750792514225079251427507925143250792519375079251942507925194750792519525079251957507925196250792519675079251972507925197750792519825079251987507925199250792519975079252002507925200750792520125079252017507925202250792520275079252032507925203750792520425079252047507925205250792520575079252062507925206750792520725079252077507925208250792520875079252092507925209750792521025079252107507925211250792521175079252122507925212750792521325079252137507925214250792521475079252152507925215750792521625079252167507925217250792521775079252182507925218750792521925079252197507925220250792522075079252367507925)
 (.leaf 3017507925302750792530325079253127507925321750792532225079253227507925330250792533075079253317507925332750792534175079253422507925345750792534625079253592507925359750792510225078751027507875103250787510375078751042507875104750787510525078751057507875106250787510675078751072507875107750787510825078751087507875109250787510975078751102507875110750787511125078751117507875112250787511275078751132507875113750787511425078751147507875115250787511575078751162507875116750787511725078751177507875118250787511875078751192507875119750787512025078751207507875121250787512175078751222507875122750787512325078751237507875124250787512475078751252507875))
 (.node 1 (.leaf 1257507875126250787512675078751272507875127750787512825078751287507875129250787512975078751302507875130750787513125078751317507875132250787513275078751332507875133750787513425078751347507875135250787513575078751362507875136750787513725078751377507875138250787513875078751392507875139750787514025078751407507875141250787514175078751422507875142750787519375078751942507875194750787519525078751957507875196250787519675078751972507875197750787519825078751987507875199250787519975078752002507875200750787520125078752017507875202250787520275078752032507875203750787520425078752047507875205250787520575078752062507875206750787520725078752077507875)
 (.leaf 2082507875208750787520925078752097507875210250787521075078752112507875211750787521225078752127507875213250787521375078752142507875214750787521525078752157507875216250787521675078752172507875217750787521825078752187507875219250787521975078752202507875223250787531025078753107507875311250787531175078753122507875312750787531325078753137507875316250787531675078753222507875322750787533325078753342507875030250782503075078251027507825103250782510375078251042507825104750782510525078251057507825106250782510675078251072507825107750782510825078251087507825109250782510975078251102507825110750782511125078251117507825112250782511275078251132507825)))))
 (.node 8 (.node 4 (.node 2 (.node 1 (.leaf 1137507825114250782511475078251152507825115750782511625078251167507825117250782511775078251182507825118750782511925078251197507825120250782512075078251212507825121750782512225078251227507825123250782512375078251242507825124750782512525078251257507825126250782512675078251272507825127750782512825078251287507825129250782512975078251302507825130750782513125078251317507825132250782513275078251332507825133750782513425078251347507825135250782513575078251362507825136750782513725078251377507825138250782513875078251392507825139750782514025078251407507825141250782514175078251422507825193750782519425078251947507825195250782519575078251962507825)
 (.leaf 1967507825197250782519775078251982507825198750782519925078251997507825200250782520075078252012507825201750782520225078252027507825203250782520375078252042507825204750782520525078252057507825206250782520675078252072507825207750782520825078252087507825209250782520975078252102507825210750782521125078252117507825212250782521275078252132507825213750782521425078252147507825215250782521575078252162507825216750782521725078252177507825218250782521875078252192507825219750782522025078252232507825223750782522725078252292507825310250782531075078253112507825311750782531225078253127507825313250782531375078253142507825314750782531525078253157507825))
 (.node 1 (.leaf 3162507825316750782532225078253227507825323250782534025078253467507825030250777503075077751027507775103250777510375077751042507775104750777510525077751057507775106250777510675077751072507775107750777510825077751087507775109250777510975077751102507775110750777511125077751117507775112250777511275077751132507775113750777511425077751147507775115250777511575077751162507775116750777511725077751177507775118250777511875077751192507775119750777512025077751207507775121250777512175077751222507775122750777512325077751237507775124250777512475077751252507775125750777512625077751267507775127250777512775077751282507775128750777512925077751297507775)
 (.leaf 1302507775130750777513125077751317507775132250777513275077751332507775133750777513425077751347507775135250777513575077751362507775136750777513725077751377507775138250777513875077751392507775139750777514025077751407507775141250777514175077751422507775193250777519375077751942507775194750777519525077751957507775196250777519675077751972507775197750777519825077751987507775199250777519975077752002507775200750777520125077752017507775202250777520275077752032507775203750777520425077752047507775205250777520575077752062507775206750777520725077752077507775208250777520875077752092507775209750777521025077752107507775211250777521175077752122507775)))
 (.node 2 (.node 1 (.leaf 2127507775213250777521375077752142507775214750777521525077752157507775216250777521675077752172507775217750777521825077752187507775219250777521975077752202507775220750777522375077752242507775224750777522875077752292507775229750777527675077753107507775311250777531175077753122507775312750777531325077753137507775314250777531475077753152507775315750777531625077753167507775317250777532175077753222507775322750777532325077753572507775103250772510375077251042507725104750772510525077251057507725106250772510675077251072507725107750772510825077251087507725109250772510975077251102507725110750772511125077251117507725112250772511275077251132507725)
 (.leaf 1137507725114250772511475077251152507725115750772511625077251167507725117250772511775077251182507725118750772511925077251197507725120250772512075077251212507725121750772512225077251227507725123250772512375077251242507725124750772512525077251257507725126250772512675077251272507725127750772512825077251287507725129250772512975077251302507725130750772513125077251317507725132250772513275077251332507725133750772513425077251347507725135250772513575077251362507725136750772513725077251377507725138250772513875077251392507725139750772514025077251407507725141250772514175077251422507725192750772519325077251937507725194250772519475077251952507725))
 (.node 1 (.leaf 1957507725196250772519675077251972507725197750772519825077251987507725199250772519975077252002507725200750772520125077252017507725202250772520275077252032507725203750772520425077252047507725205250772520575077252062507725206750772520725077252077507725208250772520875077252092507725209750772521025077252107507725211250772521175077252122507725212750772521325077252137507725214250772521475077252152507725215750772521625077252167507725217250772521775077252182507725218750772521925077252197507725220250772522075077252252507725228750772522925077252297507725310250772531075077253112507725311750772531225077253127507725313250772531375077253142507725)
 (.leaf 3147507725315250772531575077253162507725316750772532175077253222507725322750772532325077253237507725357250772500375076751037507675104250767510475076751052507675105750767510625076751067507675107250767510775076751082507675108750767510925076751097507675110250767511075076751112507675111750767511225076751127507675113250767511375076751142507675114750767511525076751157507675116250767511675076751172507675117750767511825076751187507675119250767511975076751202507675120750767512125076751217507675122250767512275076751232507675123750767512425076751247507675125250767512575076751262507675126750767512725076751277507675128250767512875076751292507675))))
 (.node 4 (.node 2 (.node 1 (.leaf 1297507675130250767513075076751312507675131750767513225076751327507675133250767513375076751342507675134750767513525076751357507675136250767513675076751372507675137750767513825076751387507675139250767513975076751402507675140750767514125076751417507675192750767519325076751937507675194250767519475076751952507675195750767519625076751967507675197250767519775076751982507675198750767519925076751997507675200250767520075076752012507675201750767520225076752027507675203250767520375076752042507675204750767520525076752057507675206250767520675076752072507675207750767520825076752087507675209250767520975076752102507675210750767521125076752117507675)
 (.leaf 2122507675212750767521325076752137507675214250767521475076752152507675215750767521625076752167507675217250767521775076752182507675218750767521925076752197507675220250767522075076752252507675228250767522875076752292507675229750767523025076753097507675310250767531075076753112507675311750767531225076753127507675313250767531375076753142507675314750767531525076753157507675316250767531675076753217507675322250767532275076753232507675323750767500725076250077507625008250762510375076251042507625104750762510525076251057507625106250762510675076251072507625107750762510825076251087507625109250762510975076251102507625110750762511125076251117507625))
 (.node 1 (.leaf 1122507625112750762511325076251137507625114250762511475076251152507625115750762511625076251167507625117250762511775076251182507625118750762511925076251197507625120250762512075076251212507625121750762512225076251227507625123250762512375076251242507625124750762512525076251257507625126250762512675076251272507625127750762512825076251287507625129250762512975076251302507625130750762513125076251317507625132250762513275076251332507625133750762513425076251347507625135250762513575076251362507625136750762513725076251377507625138250762513875076251392507625139750762514025076251407507625141250762519225076251927507625193250762519375076251942507625)
 (.leaf 1947507625195250762519575076251962507625196750762519725076251977507625198250762519875076251992507625199750762520025076252007507625201250762520175076252022507625202750762520325076252037507625204250762520475076252052507625205750762520625076252067507625207250762520775076252082507625208750762520925076252097507625210250762521075076252112507625211750762521225076252127507625213250762521375076252142507625214750762521525076252157507625216250762521675076252172507625217750762521825076252187507625219250762521975076252202507625220750762522775076252282507625228750762522925076252297507625230250762530625076253067507625307250762530775076253097507625)))
 (.node 2 (.node 1 (.leaf 3102507625310750762531125076253117507625312250762531275076253132507625313750762531425076253147507625315250762531575076253162507625316750762532175076253222507625322750762532325076253237507625347250762534775076250017507575008250757500925075750347507575035250757503875075751037507575104250757510475075751052507575105750757510625075751067507575107250757510775075751082507575108750757510925075751097507575110250757511075075751112507575111750757511225075751127507575113250757511375075751142507575114750757511525075751157507575116250757511675075751172507575117750757511825075751187507575119250757511975075751202507575120750757512125075751217507575)
 (.leaf 1222507575122750757512325075751237507575124250757512475075751252507575125750757512625075751267507575127250757512775075751282507575128750757512925075751297507575130250757513075075751312507575131750757513225075751327507575133250757513375075751342507575134750757513525075751357507575136250757513675075751372507575137750757513825075751387507575139250757513975075751402507575140750757514125075751922507575192750757519325075751937507575194250757519475075751952507575195750757519625075751967507575197250757519775075751982507575198750757519925075751997507575200250757520075075752012507575201750757520225075752027507575203250757520375075752042507575))
 (.node 1 (.leaf 2047507575205250757520575075752062507575206750757520725075752077507575208250757520875075752092507575209750757521025075752107507575211250757521175075752122507575212750757521325075752137507575214250757521475075752152507575215750757521625075752167507575217250757521775075752182507575218750757521925075752197507575220250757522075075752277507575228250757522875075752292507575229750757523025075753052507575305750757530625075753067507575307250757530775075753092507575309750757531025075753107507575311250757531175075753122507575312750757531325075753137507575314250757531475075753152507575315750757531625075753167507575317250757532175075753222507575)
 (.leaf 3227507575323250757532375075753242507575324750757534725075753477507575034750752503525075250412507525104250752510475075251052507525105750752510625075251067507525107250752510775075251082507525108750752510925075251097507525110250752511075075251112507525111750752511225075251127507525113250752511375075251142507525114750752511525075251157507525116250752511675075251172507525117750752511825075251187507525119250752511975075251202507525120750752512125075251217507525122250752512275075251232507525123750752512425075251247507525125250752512575075251262507525126750752512725075251277507525128250752512875075251292507525129750752513025075251307507525))))))
 (.node 16 (.node 8 (.node 4 (.node 2 (.node 1 (.leaf 1312507525131750752513225075251327507525133250752513375075251342507525134750752513525075251357507525136250752513675075251372507525137750752513825075251387507525139250752513975075251402507525140750752519225075251927507525193250752519375075251942507525194750752519525075251957507525196250752519675075251972507525197750752519825075251987507525199250752519975075252002507525200750752520125075252017507525202250752520275075252032507525203750752520425075252047507525205250752520575075252062507525206750752520725075252077507525208250752520875075252092507525209750752521025075252107507525211250752521175075252122507525212750752521325075252137507525)
 (.leaf 2142507525214750752521525075252157507525216250752521675075252172507525217750752521825075252187507525219250752521975075252202507525220750752522725075252277507525228250752522875075252292507525229750752523025075253047507525305250752530575075253062507525306750752530725075253077507525308250752530875075253092507525309750752531025075253107507525311250752531175075253122507525312750752531325075253137507525314250752531475075253152507525315750752532175075253222507525322750752532325075253237507525324250752532475075253252507525346750752510475074751052507475105750747510625074751067507475107250747510775074751082507475108750747510925074751097507475))
 (.node 1 (.leaf 1102507475110750747511125074751117507475112250747511275074751132507475113750747511425074751147507475115250747511575074751162507475116750747511725074751177507475118250747511875074751192507475119750747512025074751207507475121250747512175074751222507475122750747512325074751237507475124250747512475074751252507475125750747512625074751267507475127250747512775074751282507475128750747512925074751297507475130250747513075074751312507475131750747513225074751327507475133250747513375074751342507475134750747513525074751357507475136250747513675074751372507475137750747513825074751387507475139250747513975074751402507475140750747514125074751922507475)
 (.leaf 1927507475193250747519375074751942507475194750747519525074751957507475196250747519675074751972507475197750747519825074751987507475199250747519975074752002507475200750747520125074752017507475202250747520275074752032507475203750747520425074752047507475205250747520575074752062507475206750747520725074752077507475208250747520875074752092507475209750747521025074752107507475211250747521175074752122507475212750747521325074752137507475214250747521475074752152507475215750747521625074752167507475217250747521775074752182507475218750747521925074752197507475220250747522075074752267507475227250747522775074752282507475228750747522925074752297507475)))
 (.node 2 (.node 1 (.leaf 2302507475304250747530475074753052507475305750747530625074753067507475307250747530775074753082507475308750747530925074753097507475310250747531075074753112507475311750747531225074753127507475313250747531375074753142507475314750747531525074753157507475316250747532175074753222507475322750747532325074753237507475324250747532475074753252507475346750747534725074753477507475006250742510525074251057507425106250742510675074251072507425107750742510825074251087507425109250742510975074251102507425110750742511125074251117507425112250742511275074251132507425113750742511425074251147507425115250742511575074251162507425116750742511725074251177507425)
 (.leaf 1182507425118750742511925074251197507425120250742512075074251212507425121750742512225074251227507425123250742512375074251242507425124750742512525074251257507425126250742512675074251272507425127750742512825074251287507425129250742512975074251302507425130750742513125074251317507425132250742513275074251332507425133750742513425074251347507425135250742513575074251362507425136750742513725074251377507425138250742513875074251392507425139750742514025074251407507425141250742517425074251917507425192250742519275074251932507425193750742519425074251947507425195250742519575074251962507425196750742519725074251977507425198250742519875074251992507425))
 (.node 1 (.leaf 1997507425200250742520075074252012507425201750742520225074252027507425203250742520375074252042507425204750742520525074252057507425206250742520675074252072507425207750742520825074252087507425209250742520975074252102507425210750742521125074252117507425212250742521275074252132507425213750742521425074252147507425215250742521575074252162507425216750742521725074252177507425218250742521875074252192507425219750742522025074252252507425225750742522625074252267507425227250742522775074252282507425228750742522925074252297507425230250742523425074252347507425304250742530475074253052507425305750742530625074253067507425307250742530775074253082507425)
 (.leaf 3087507425309250742530975074253102507425310750742531125074253117507425312250742531275074253132507425313750742531425074253147507425315250742531575074253162507425316750742531725074253212507425321750742532225074253227507425323250742532375074253242507425324750742532525074253257507425346750742534725074250002507375006250737502825073751062507375106750737510725073751077507375108250737510875073751092507375109750737511025073751107507375111250737511175073751122507375112750737511325073751137507375114250737511475073751152507375115750737511625073751167507375117250737511775073751182507375118750737511925073751197507375120250737512075073751212507375))))
 (.node 4 (.node 2 (.node 1 (.leaf 1217507375122250737512275073751232507375123750737512425073751247507375125250737512575073751262507375126750737512725073751277507375128250737512875073751292507375129750737513025073751307507375131250737513175073751322507375132750737513325073751337507375134250737513475073751352507375135750737513625073751367507375137250737513775073751382507375138750737513925073751397507375140250737514075073751412507375174250737519175073751922507375192750737519325073751937507375194250737519475073751952507375195750737519625073751967507375197250737519775073751982507375198750737519925073751997507375200250737520075073752012507375201750737520225073752027507375)
 (.leaf 2032507375203750737520425073752047507375205250737520575073752062507375206750737520725073752077507375208250737520875073752092507375209750737521025073752107507375211250737521175073752122507375212750737521325073752137507375214250737521475073752152507375215750737521625073752167507375217250737521775073752182507375218750737521925073752197507375220250737522425073752247507375225250737522575073752262507375226750737522725073752277507375228250737522875073752292507375229750737523975073753027507375303250737530375073753042507375304750737530525073753057507375306250737530675073753072507375307750737530825073753087507375309250737530975073753102507375))
 (.node 1 (.leaf 3107507375311250737531175073753122507375312750737531325073753137507375314250737531475073753152507375315750737531625073753167507375317250737531775073753182507375319250737531975073753212507375321750737532225073753227507375323250737532375073753242507375324750737532525073753257507375329750737533025073753472507375347750737534825073753592507375359750737502575073250262507325028250732510725073251077507325108250732510875073251092507325109750732511025073251107507325111250732511175073251122507325112750732511325073251137507325114250732511475073251152507325115750732511625073251167507325117250732511775073251182507325118750732511925073251197507325)
 (.leaf 1202507325120750732512125073251217507325122250732512275073251232507325123750732512425073251247507325125250732512575073251262507325126750732512725073251277507325128250732512875073251292507325129750732513025073251307507325131250732513175073251322507325132750732513325073251337507325134250732513475073251352507325135750732513625073251367507325137250732513775073251382507325138750732513925073251397507325140250732514075073251917507325192250732519275073251932507325193750732519425073251947507325195250732519575073251962507325196750732519725073251977507325198250732519875073251992507325199750732520025073252007507325201250732520175073252022507325)))
 (.node 2 (.node 1 (.leaf 2027507325203250732520375073252042507325204750732520525073252057507325206250732520675073252072507325207750732520825073252087507325209250732520975073252102507325210750732521125073252117507325212250732521275073252132507325213750732521425073252147507325215250732521575073252162507325216750732521725073252177507325218250732521875073252192507325219750732522425073252247507325225250732522575073252262507325226750732522725073252277507325228250732522875073252292507325229750732523025073252397507325302250732530275073253032507325303750732530425073253047507325305250732530575073253062507325306750732530725073253077507325308250732530875073253092507325)
 (.leaf 3097507325310250732531075073253112507325311750732531225073253127507325313250732531375073253142507325314750732531525073253157507325316250732531675073253172507325317750732531825073253187507325319250732531975073253212507325321750732532225073253227507325323250732532375073253242507325324750732532525073253257507325326250732534775073253482507325357750732535875073253592507325359750732503025072751082507275108750727510925072751097507275110250727511075072751112507275111750727511225072751127507275113250727511375072751142507275114750727511525072751157507275116250727511675072751172507275117750727511825072751187507275119250727511975072751202507275))
 (.node 1 (.leaf 1207507275121250727512175072751222507275122750727512325072751237507275124250727512475072751252507275125750727512625072751267507275127250727512775072751282507275128750727512925072751297507275130250727513075072751312507275131750727513225072751327507275133250727513375072751342507275134750727513525072751357507275136250727513675072751372507275137750727513825072751387507275139250727513975072751402507275140750727519175072751922507275192750727519325072751937507275194250727519475072751952507275195750727519625072751967507275197250727519775072751982507275198750727519925072751997507275200250727520075072752012507275201750727520225072752027507275)
 (.leaf 2032507275203750727520425072752047507275205250727520575072752062507275206750727520725072752077507275208250727520875072752092507275209750727521025072752107507275211250727521175072752122507275212750727521325072752137507275214250727521475072752152507275215750727521625072752167507275217250727521775072752182507275218750727522275072752237507275224250727522475072752252507275225750727522625072752267507275227250727522775072752282507275228750727522925072752297507275302250727530275072753032507275303750727530425072753047507275305250727530575072753062507275306750727530725072753077507275308250727530875072753092507275309750727531025072753107507275)))))
 (.node 8 (.node 4 (.node 2 (.node 1 (.leaf 3112507275311750727531225072753127507275313250727531375072753142507275314750727531525072753157507275316250727531675072753172507275317750727531825072753187507275319250727531975072753207507275321250727532175072753222507275322750727532325072753237507275324250727532475072753252507275325750727532625072753577507275358250727535875072750302507225030750722510875072251092507225109750722511025072251107507225111250722511175072251122507225112750722511325072251137507225114250722511475072251152507225115750722511625072251167507225117250722511775072251182507225118750722511925072251197507225120250722512075072251212507225121750722512225072251227507225)
 (.leaf 1232507225123750722512425072251247507225125250722512575072251262507225126750722512725072251277507225128250722512875072251292507225129750722513025072251307507225131250722513175072251322507225132750722513325072251337507225134250722513475072251352507225135750722513625072251367507225137250722513775072251382507225138750722513925072251397507225140250722514075072251917507225192250722519275072251932507225193750722519425072251947507225195250722519575072251962507225196750722519725072251977507225198250722519875072251992507225199750722520025072252007507225201250722520175072252022507225202750722520325072252037507225204250722520475072252052507225))
 (.node 1 (.leaf 2057507225206250722520675072252072507225207750722520825072252087507225209250722520975072252102507225210750722521125072252117507225212250722521275072252132507225213750722521425072252147507225215250722521575072252162507225216750722521725072252177507225223750722522425072252247507225225250722522575072252262507225226750722522725072252277507225228250722522875072252292507225229750722530225072253027507225303250722530375072253042507225304750722530525072253057507225306250722530675072253072507225307750722530825072253087507225309250722530975072253102507225310750722531125072253117507225312250722531275072253132507225313750722531425072253147507225)
 (.leaf 3152507225315750722531625072253167507225317250722531775072253182507225318750722531925072253197507225320250722532075072253212507225321750722532225072253227507225323250722532375072253242507225324750722532525072253257507225326250722534825072253572507225357750722535825072253587507225001250717501675071750387507175039250717504325071750437507175109250717510975071751102507175110750717511125071751117507175112250717511275071751132507175113750717511425071751147507175115250717511575071751162507175116750717511725071751177507175118250717511875071751192507175119750717512025071751207507175121250717512175071751222507175122750717512325071751237507175)))
 (.node 2 (.node 1 (.leaf 1242507175124750717512525071751257507175126250717512675071751272507175127750717512825071751287507175129250717512975071751302507175130750717513125071751317507175132250717513275071751332507175133750717513425071751347507175135250717513575071751362507175136750717513725071751377507175138250717513875071751392507175139750717514025071751917507175192250717519275071751932507175193750717519425071751947507175195250717519575071751962507175196750717519725071751977507175198250717519875071751992507175199750717520025071752007507175201250717520175071752022507175202750717520325071752037507175204250717520475071752052507175205750717520625071752067507175)
 (.leaf 2072507175207750717520825071752087507175209250717520975071752102507175210750717521125071752117507175212250717521275071752132507175213750717521425071752147507175215250717521575071752162507175216750717522375071752242507175224750717522525071752257507175226250717522675071752272507175227750717522825071752287507175229250717530175071753022507175302750717530325071753037507175304250717530475071753052507175305750717530625071753067507175307250717530775071753082507175308750717530925071753097507175310250717531075071753112507175311750717531225071753127507175313250717531375071753142507175314750717531525071753157507175316250717531675071753172507175))
 (.node 1 (.leaf 3177507175318250717531875071753192507175319750717532025071753207507175321250717532175071753222507175322750717532325071753237507175324250717532475071753252507175325750717532625071753572507175357750717535825071753587507175359250717500575071250062507125010250712502025071250432507125043750712510975071251102507125110750712511125071251117507125112250712511275071251132507125113750712511425071251147507125115250712511575071251162507125116750712511725071251177507125118250712511875071251192507125119750712512025071251207507125121250712512175071251222507125122750712512325071251237507125124250712512475071251252507125125750712512625071251267507125)
 (.leaf 1272507125127750712512825071251287507125129250712512975071251302507125130750712513125071251317507125132250712513275071251332507125133750712513425071251347507125135250712513575071251362507125136750712513725071251377507125138250712513875071251392507125139750712514025071251922507125192750712519325071251937507125194250712519475071251952507125195750712519625071251967507125197250712519775071251982507125198750712519925071251997507125200250712520075071252012507125201750712520225071252027507125203250712520375071252042507125204750712520525071252057507125206250712520675071252072507125207750712520825071252087507125209250712520975071252102507125))))
 (.node 4 (.node 2 (.node 1 (.leaf 2107507125211250712521175071252122507125212750712521325071252137507125214250712521475071252152507125215750712521625071252242507125224750712522525071252257507125226250712522675071252272507125227750712522825071252287507125229250712530175071253022507125302750712530325071253037507125304250712530475071253052507125305750712530625071253067507125307250712530775071253082507125308750712530925071253097507125310250712531075071253112507125311750712531225071253127507125313250712531375071253142507125314750712531525071253157507125316250712531675071253172507125317750712531825071253187507125319250712531975071253202507125320750712532125071253217507125)
 (.leaf 3222507125322750712532325071253237507125324250712532475071253252507125325750712532625071253267507125349250712501025070751097507075110250707511075070751112507075111750707511225070751127507075113250707511375070751142507075114750707511525070751157507075116250707511675070751172507075117750707511825070751187507075119250707511975070751202507075120750707512125070751217507075122250707512275070751232507075123750707512425070751247507075125250707512575070751262507075126750707512725070751277507075128250707512875070751292507075129750707513025070751307507075131250707513175070751322507075132750707513325070751337507075134250707513475070751352507075))
 (.node 1 (.leaf 1357507075136250707513675070751372507075137750707513825070751387507075139250707513975070751402507075192750707519325070751937507075194250707519475070751952507075195750707519625070751967507075197250707519775070751982507075198750707519925070751997507075200250707520075070752012507075201750707520225070752027507075203250707520375070752042507075204750707520525070752057507075206250707520675070752072507075207750707520825070752087507075209250707520975070752102507075210750707521125070752117507075212250707521275070752132507075213750707521425070752147507075215250707521575070752242507075224750707522525070752257507075226250707522675070752272507075)
 (.leaf 2277507075228250707522875070752292507075301250707530175070753022507075302750707530325070753037507075304250707530475070753052507075305750707530625070753067507075307250707530775070753082507075308750707530925070753097507075310250707531075070753112507075311750707531225070753127507075313250707531375070753142507075314750707531525070753157507075316250707531675070753172507075317750707531825070753187507075319250707531975070753202507075320750707532125070753217507075322250707532275070753232507075323750707532425070753247507075325250707532575070753262507075326750707532725070753277507075349250707535825070753597507075005750702502275070250347507025)))
 (.node 2 (.node 1 (.leaf 352507025109750702511025070251107507025111250702511175070251122507025112750702511325070251137507025114250702511475070251152507025115750702511625070251167507025117250702511775070251182507025118750702511925070251197507025120250702512075070251212507025121750702512225070251227507025123250702512375070251242507025124750702512525070251257507025126250702512675070251272507025127750702512825070251287507025129250702512975070251302507025130750702513125070251317507025132250702513275070251332507025133750702513425070251347507025135250702513575070251362507025136750702513725070251377507025138250702513875070251392507025139750702514025070251927507025)
 (.leaf 1932507025193750702519425070251947507025195250702519575070251962507025196750702519725070251977507025198250702519875070251992507025199750702520025070252007507025201250702520175070252022507025202750702520325070252037507025204250702520475070252052507025205750702520625070252067507025207250702520775070252082507025208750702520925070252097507025210250702521075070252112507025211750702521225070252127507025213250702521375070252142507025214750702521525070252242507025224750702522525070252257507025226250702522675070252272507025227750702522825070252287507025243250702529925070252997507025300250702530075070253012507025301750702530225070253027507025))
 (.node 1 (.leaf 3032507025303750702530425070253047507025305250702530575070253062507025306750702530725070253077507025308250702530875070253092507025309750702531025070253107507025311250702531175070253122507025312750702531325070253137507025314250702531475070253152507025315750702531625070253167507025317250702531775070253182507025318750702531925070253197507025320250702532075070253212507025321750702532225070253227507025323250702532375070253242507025324750702532525070253257507025326250702532675070253272507025327750702532825070253287507025349250702502275069751097506975110250697511075069751112506975111750697511225069751127506975113250697511375069751142506975)
 (.leaf 1147506975115250697511575069751162506975116750697511725069751177506975118250697511875069751192506975119750697512025069751207506975121250697512175069751222506975122750697512325069751237506975124250697512475069751252506975125750697512625069751267506975127250697512775069751282506975128750697512925069751297506975130250697513075069751312506975131750697513225069751327506975133250697513375069751342506975134750697513525069751357506975136250697513675069751372506975137750697513825069751387506975139250697513975069751507506975193250697519375069751942506975194750697519525069751957506975196250697519675069751972506975197750697519825069751987506975)))))))
 (.node 32 (.node 16 (.node 8 (.node 4 (.node 2 (.node 1 (.leaf 1992506975199750697520025069752007506975201250697520175069752022506975202750697520325069752037506975204250697520475069752052506975205750697520625069752067506975207250697520775069752082506975208750697520925069752097506975210250697521075069752112506975211750697521225069752127506975213250697521375069752142506975214750697522425069752247506975225250697522575069752262506975226750697522725069752277506975228250697522875069752372506975237750697529575069752967506975297250697529775069752982506975298750697529925069752997506975300250697530075069753012506975301750697530225069753027506975303250697530375069753042506975304750697530525069753057506975)
 (.leaf 3062506975306750697530725069753077506975308250697530875069753092506975309750697531025069753107506975311250697531175069753122506975312750697531325069753137506975314250697531475069753152506975315750697531625069753167506975317250697531775069753182506975318750697531925069753197506975320250697532075069753212506975321750697532225069753227506975323250697532375069753242506975324750697532525069753257506975326250697532675069753272506975327750697532825069753287506975329250697534425069753447506975349750697500125069250412506925109750692511025069251107506925111250692511175069251122506925112750692511325069251137506925114250692511475069251152506925))
 (.node 1 (.leaf 1157506925116250692511675069251172506925117750692511825069251187506925119250692511975069251202506925120750692512125069251217506925122250692512275069251232506925123750692512425069251247506925125250692512575069251262506925126750692512725069251277506925128250692512875069251292506925129750692513025069251307506925131250692513175069251322506925132750692513325069251337506925134250692513475069251352506925135750692513625069251367506925137250692513775069251382506925138750692513925069251507506925193250692519375069251942506925194750692519525069251957506925196250692519675069251972506925197750692519825069251987506925199250692519975069252002506925)
 (.leaf 2007506925201250692520175069252022506925202750692520325069252037506925204250692520475069252052506925205750692520625069252067506925207250692520775069252082506925208750692520925069252097506925210250692521075069252112506925211750692521225069252127506925213250692521375069252142506925214750692521525069252237506925224250692522475069252252506925225750692522625069252267506925227250692522775069252282506925228750692523525069252357506925237250692523775069252952506925295750692529625069252967506925297250692529775069252982506925298750692529925069252997506925300250692530075069253012506925301750692530225069253027506925303250692530375069253042506925)))
 (.node 2 (.node 1 (.leaf 3047506925305250692530575069253062506925306750692530725069253077506925308250692530875069253092506925309750692531025069253107506925311250692531175069253122506925312750692531325069253137506925314250692531475069253152506925315750692531625069253167506925317250692531775069253182506925318750692531925069253197506925320250692532075069253212506925321750692532225069253227506925323250692532375069253242506925324750692532525069253257506925326250692532675069253272506925327750692532825069253287506925329250692532975069253442506925344750692534525069253472506925004750687502025068751097506875110250687511075068751112506875111750687511225068751127506875)
 (.leaf 1132506875113750687511425068751147506875115250687511575068751162506875116750687511725068751177506875118250687511875068751192506875119750687512025068751207506875121250687512175068751222506875122750687512325068751237506875124250687512475068751252506875125750687512625068751267506875127250687512775068751282506875128750687512925068751297506875130250687513075068751312506875131750687513225068751327506875133250687513375068751342506875134750687513525068751357506875136250687513675068751372506875137750687513825068751387506875139250687519375068751942506875194750687519525068751957506875196250687519675068751972506875197750687519825068751987506875))
 (.node 1 (.leaf 1992506875199750687520025068752007506875201250687520175068752022506875202750687520325068752037506875204250687520475068752052506875205750687520625068752067506875207250687520775068752082506875208750687520925068752097506875210250687521075068752112506875211750687521225068752127506875213250687521375068752142506875214750687521525068752232506875223750687522425068752247506875225250687522575068752262506875226750687522725068752277506875228250687523525068752357506875295750687529625068752967506875297250687529775068752982506875298750687529925068752997506875300250687530075068753012506875301750687530225068753027506875303250687530375068753042506875)
 (.leaf 3047506875305250687530575068753062506875306750687530725068753077506875308250687530875068753092506875309750687531025068753107506875311250687531175068753122506875312750687531325068753137506875314250687531475068753152506875315750687531625068753167506875317250687531775068753182506875318750687531925068753197506875320250687532075068753212506875321750687532225068753227506875323250687532375068753242506875324750687532525068753257506875326250687532675068753272506875327750687532825068753287506875329250687532975068753447506875345250687534575068753472506875347750687502175068250222506825039250682504125068251097506825110250682511075068251112506825))))
 (.node 4 (.node 2 (.node 1 (.leaf 1117506825112250682511275068251132506825113750682511425068251147506825115250682511575068251162506825116750682511725068251177506825118250682511875068251192506825119750682512025068251207506825121250682512175068251222506825122750682512325068251237506825124250682512475068251252506825125750682512625068251267506825127250682512775068251282506825128750682512925068251297506825130250682513075068251312506825131750682513225068251327506825133250682513375068251342506825134750682513525068251357506825136250682513675068251372506825137750682513825068251387506825193750682519425068251947506825195250682519575068251962506825196750682519725068251977506825)
 (.leaf 1982506825198750682519925068251997506825200250682520075068252012506825201750682520225068252027506825203250682520375068252042506825204750682520525068252057506825206250682520675068252072506825207750682520825068252087506825209250682520975068252102506825210750682521125068252117506825212250682521275068252132506825213750682521425068252147506825215250682522325068252237506825224250682522475068252252506825225750682522625068252267506825227250682522775068252282506825294250682529475068252952506825295750682529625068252967506825297250682529775068252982506825298750682529925068252997506825300250682530075068253012506825301750682530225068253027506825))
 (.node 1 (.leaf 3032506825303750682530425068253047506825305250682530575068253062506825306750682530725068253077506825308250682530875068253092506825309750682531025068253107506825311250682531175068253122506825312750682531325068253137506825314250682531475068253152506825315750682531625068253167506825317250682531775068253182506825318750682531925068253197506825320250682532075068253212506825321750682532225068253227506825323250682532375068253242506825324750682532525068253257506825326250682532675068253272506825327750682532825068253287506825329250682532975068253302506825345250682534575068253462506825346750682534775068253482506825028750677510975067751102506775)
 (.leaf 1107506775111250677511175067751122506775112750677511325067751137506775114250677511475067751152506775115750677511625067751167506775117250677511775067751182506775118750677511925067751197506775120250677512075067751212506775121750677512225067751227506775123250677512375067751242506775124750677512525067751257506775126250677512675067751272506775127750677512825067751287506775129250677512975067751302506775130750677513125067751317506775132250677513275067751332506775133750677513425067751347506775135250677513575067751362506775136750677513725067751377506775138250677513875067751942506775194750677519525067751957506775196250677519675067751972506775)))
 (.node 2 (.node 1 (.leaf 1977506775198250677519875067751992506775199750677520025067752007506775201250677520175067752022506775202750677520325067752037506775204250677520475067752052506775205750677520625067752067506775207250677520775067752082506775208750677520925067752097506775210250677521075067752112506775211750677521225067752127506775213250677521375067752142506775214750677521525067752157506775220250677522325067752237506775224250677522475067752252506775225750677522625067752267506775227250677522775067752282506775293750677529425067752947506775295250677529575067752962506775296750677529725067752977506775298250677529875067752992506775299750677530025067753007506775)
 (.leaf 3012506775301750677530225067753027506775303250677530375067753042506775304750677530525067753057506775306250677530675067753072506775307750677530825067753087506775309250677530975067753102506775310750677531125067753117506775312250677531275067753132506775313750677531425067753147506775315250677531575067753162506775316750677531725067753177506775318250677531875067753192506775319750677532025067753207506775321250677532175067753222506775322750677532325067753237506775324250677532475067753252506775325750677532625067753267506775327250677532775067753282506775328750677532925067753297506775330250677533075067753462506775346750677502875067251097506725))
 (.node 1 (.leaf 1102506725110750672511125067251117506725112250672511275067251132506725113750672511425067251147506725115250672511575067251162506725116750672511725067251177506725118250672511875067251192506725119750672512025067251207506725121250672512175067251222506725122750672512325067251237506725124250672512475067251252506725125750672512625067251267506725127250672512775067251282506725128750672512925067251297506725130250672513075067251312506725131750672513225067251327506725133250672513375067251342506725134750672513525067251357506725136250672513675067251372506725137750672519425067251947506725195250672519575067251962506725196750672519725067251977506725)
 (.leaf 1982506725198750672519925067251997506725200250672520075067252012506725201750672520225067252027506725203250672520375067252042506725204750672520525067252057506725206250672520675067252072506725207750672520825067252087506725209250672520975067252102506725210750672521125067252117506725212250672521275067252132506725213750672521425067252147506725215250672521575067252232506725223750672522425067252247506725225250672522575067252262506725226750672522725067252277506725293750672529425067252947506725295250672529575067252962506725296750672529725067252977506725298250672529875067252992506725299750672530025067253007506725301250672530175067253022506725)))))
 (.node 8 (.node 4 (.node 2 (.node 1 (.leaf 3027506725303250672530375067253042506725304750672530525067253057506725306250672530675067253072506725307750672530825067253087506725309250672530975067253102506725310750672531125067253117506725312250672531275067253132506725313750672531425067253147506725315250672531575067253162506725316750672531725067253177506725318250672531875067253192506725319750672532025067253207506725321250672532175067253222506725322750672532325067253237506725324250672532475067253252506725325750672532625067253267506725327250672532775067253282506725328750672532925067253297506725330250672533075067250302506675030750667504525066751092506675109750667511025066751107506675)
 (.leaf 1112506675111750667511225066751127506675113250667511375066751142506675114750667511525066751157506675116250667511675066751172506675117750667511825066751187506675119250667511975066751202506675120750667512125066751217506675122250667512275066751232506675123750667512425066751247506675125250667512575066751262506675126750667512725066751277506675128250667512875066751292506675129750667513025066751307506675131250667513175066751322506675132750667513325066751337506675134250667513475066751352506675135750667513625066751367506675194250667519475066751952506675195750667519625066751967506675197250667519775066751982506675198750667519925066751997506675))
 (.node 1 (.leaf 2002506675200750667520125066752017506675202250667520275066752032506675203750667520425066752047506675205250667520575066752062506675206750667520725066752077506675208250667520875066752092506675209750667521025066752107506675211250667521175066752122506675212750667521325066752137506675214250667521475066752152506675223250667522375066752242506675224750667522525066752257506675226250667522675066752272506675227750667529375066752942506675294750667529525066752957506675296250667529675066752972506675297750667529825066752987506675299250667529975066753002506675300750667530125066753017506675302250667530275066753032506675303750667530425066753047506675)
 (.leaf 3052506675305750667530625066753067506675307250667530775066753082506675308750667530925066753097506675310250667531075066753112506675311750667531225066753127506675313250667531375066753142506675314750667531525066753157506675316250667531675066753172506675317750667531825066753187506675319250667531975066753202506675320750667532125066753217506675322250667532275066753232506675323750667532425066753247506675325250667532575066753262506675326750667532725066753277506675328250667532875066753292506675329750667533025066753307506675331250667510925066251097506625110250662511075066251112506625111750662511225066251127506625113250662511375066251142506625)))
 (.node 2 (.node 1 (.leaf 1147506625115250662511575066251162506625116750662511725066251177506625118250662511875066251192506625119750662512025066251207506625121250662512175066251222506625122750662512325066251237506625124250662512475066251252506625125750662512625066251267506625127250662512775066251282506625128750662512925066251297506625130250662513075066251312506625131750662513225066251327506625133250662513375066251342506625134750662519475066251952506625195750662519625066251967506625197250662519775066251982506625198750662519925066251997506625200250662520075066252012506625201750662520225066252027506625203250662520375066252042506625204750662520525066252057506625)
 (.leaf 2062506625206750662520725066252077506625208250662520875066252092506625209750662521025066252107506625211250662521175066252122506625212750662521325066252137506625214250662521475066252152506625223750662522425066252247506625225250662522575066252262506625226750662522725066252277506625293750662529425066252947506625295250662529575066252962506625296750662529725066252977506625298250662529875066252992506625299750662530025066253007506625301250662530175066253022506625302750662530325066253037506625304250662530475066253052506625305750662530625066253067506625307250662530775066253082506625308750662530925066253097506625310250662531075066253112506625))
 (.node 1 (.leaf 3117506625312250662531275066253132506625313750662531425066253147506625315250662531575066253162506625316750662531725066253177506625318250662531875066253192506625319750662532025066253207506625321250662532175066253222506625322750662532325066253237506625324250662532475066253252506625325750662532625066253267506625327250662532775066253282506625328750662532925066253297506625330250662533075066253312506625331750662510975065751102506575110750657511125065751117506575112250657511275065751132506575113750657511425065751147506575115250657511575065751162506575116750657511725065751177506575118250657511875065751192506575119750657512025065751207506575)
 (.leaf 1212506575121750657512225065751227506575123250657512375065751242506575124750657512525065751257506575126250657512675065751272506575127750657512825065751287506575129250657512975065751302506575130750657513125065751317506575132250657513275065751332506575133750657519475065751952506575195750657519625065751967506575197250657519775065751982506575198750657519925065751997506575200250657520075065752012506575201750657520225065752027506575203250657520375065752042506575204750657520525065752057506575206250657520675065752072506575207750657520825065752087506575209250657520975065752102506575210750657521125065752117506575212250657521275065752132506575))))
 (.node 4 (.node 2 (.node 1 (.leaf 2137506575214250657521475065752152506575223750657522425065752247506575225250657522575065752262506575226750657522725065752932506575293750657529425065752947506575295250657529575065752962506575296750657529725065752977506575298250657529875065752992506575299750657530025065753007506575301250657530175065753022506575302750657530325065753037506575304250657530475065753052506575305750657530625065753067506575307250657530775065753082506575308750657530925065753097506575310250657531075065753112506575311750657531225065753127506575313250657531375065753142506575314750657531525065753157506575316250657531675065753172506575317750657531825065753187506575)
 (.leaf 3192506575319750657532025065753207506575321250657532175065753222506575322750657532325065753237506575324250657532475065753252506575325750657532625065753267506575327250657532775065753282506575328750657532925065753297506575330250657533075065753312506575331750657533225065753327506575109250652510975065251102506525110750652511125065251117506525112250652511275065251132506525113750652511425065251147506525115250652511575065251162506525116750652511725065251177506525118250652511875065251192506525119750652512025065251207506525121250652512175065251222506525122750652512325065251237506525124250652512475065251252506525125750652512625065251267506525))
 (.node 1 (.leaf 1272506525127750652512825065251287506525129250652512975065251302506525130750652513125065251317506525132250652513275065251947506525195250652519575065251962506525196750652519725065251977506525198250652519875065251992506525199750652520025065252007506525201250652520175065252022506525202750652520325065252037506525204250652520475065252052506525205750652520625065252067506525207250652520775065252082506525208750652520925065252097506525210250652521075065252112506525211750652521225065252127506525213250652521375065252142506525214750652521525065252237506525224250652522475065252252506525225750652522625065252267506525227250652529325065252937506525)
 (.leaf 2942506525294750652529525065252957506525296250652529675065252972506525297750652529825065252987506525299250652529975065253002506525300750652530125065253017506525302250652530275065253032506525303750652530425065253047506525305250652530575065253062506525306750652530725065253077506525308250652530875065253092506525309750652531025065253107506525311250652531175065253122506525312750652531325065253137506525314250652531475065253152506525315750652531625065253167506525317250652531775065253182506525318750652531925065253197506525320250652532075065253212506525321750652532225065253227506525323250652532375065253242506525324750652532525065253257506525)))
 (.node 2 (.node 1 (.leaf 3262506525326750652532725065253277506525328250652532875065253292506525329750652533025065253307506525331250652533175065253322506525332750652533325065250497506475109750647511025064751107506475111250647511175064751122506475112750647511325064751137506475114250647511475064751152506475115750647511625064751167506475117250647511775064751182506475118750647511925064751197506475120250647512075064751212506475121750647512225064751227506475123250647512375064751242506475124750647512525064751257506475126250647512675064751272506475127750647512825064751287506475129250647512975064751302506475130750647513125064751317506475132250647519475064751952506475)
 (.leaf 1957506475196250647519675064751972506475197750647519825064751987506475199250647519975064752002506475200750647520125064752017506475202250647520275064752032506475203750647520425064752047506475205250647520575064752062506475206750647520725064752077506475208250647520875064752092506475209750647521025064752107506475211250647521175064752122506475212750647521325064752137506475224250647522475064752252506475225750647522625064752267506475227250647529325064752937506475294250647529475064752952506475295750647529625064752967506475297250647529775064752982506475298750647529925064752997506475300250647530075064753012506475301750647530225064753027506475))
 (.node 1 (.leaf 3032506475303750647530425064753047506475305250647530575064753062506475306750647530725064753077506475308250647530875064753092506475309750647531025064753107506475311250647531175064753122506475312750647531325064753137506475314250647531475064753152506475315750647531625064753167506475317250647531775064753182506475318750647531925064753197506475320250647532075064753212506475321750647532225064753227506475323250647532375064753242506475324750647532525064753257506475326250647532675064753272506475327750647532825064753287506475329250647532975064753302506475330750647533125064753317506475332250647533275064753332506475109250642510975064251102506425)
 (.leaf 1107506425111250642511175064251122506425112750642511325064251137506425114250642511475064251152506425115750642511625064251167506425117250642511775064251182506425118750642511925064251197506425120250642512075064251212506425121750642512225064251227506425123250642512375064251242506425124750642512525064251257506425126250642512675064251272506425127750642512825064251287506425129250642512975064251302506425130750642513125064251317506425194750642519525064251957506425196250642519675064251972506425197750642519825064251987506425199250642519975064252002506425200750642520125064252017506425202250642520275064252032506425203750642520425064252047506425))))))
 (.node 16 (.node 8 (.node 4 (.node 2 (.node 1 (.leaf 2052506425205750642520625064252067506425207250642520775064252082506425208750642520925064252097506425210250642521075064252112506425211750642521225064252127506425225250642522575064252927506425293250642529375064252942506425294750642529525064252957506425296250642529675064252972506425297750642529825064252987506425299250642529975064253002506425300750642530125064253017506425302250642530275064253032506425303750642530425064253047506425305250642530575064253062506425306750642530725064253077506425308250642530875064253092506425309750642531025064253107506425311250642531175064253122506425312750642531325064253137506425314250642531475064253152506425)
 (.leaf 3157506425316250642531675064253172506425317750642531825064253187506425319250642531975064253202506425320750642532125064253217506425322250642532275064253232506425323750642532425064253247506425325250642532575064253262506425326750642532725064253277506425328250642532875064253292506425329750642533025064253307506425331250642533175064253322506425332750642533325064251092506375109750637511025063751107506375111250637511175063751122506375112750637511325063751137506375114250637511475063751152506375115750637511625063751167506375117250637511775063751182506375118750637511925063751197506375120250637512075063751212506375121750637512225063751227506375))
 (.node 1 (.leaf 1232506375123750637512425063751247506375125250637512575063751262506375126750637512725063751277506375128250637512875063751292506375129750637513025063751307506375131250637519475063751952506375195750637519625063751967506375197250637519775063751982506375198750637519925063751997506375200250637520075063752012506375201750637520225063752027506375203250637520375063752042506375204750637520525063752057506375206250637520675063752072506375207750637520825063752087506375209250637520975063752102506375210750637521125063752117506375212250637521275063752932506375293750637529425063752947506375295250637529575063752962506375296750637529725063752977506375)
 (.leaf 2982506375298750637529925063752997506375300250637530075063753012506375301750637530225063753027506375303250637530375063753042506375304750637530525063753057506375306250637530675063753072506375307750637530825063753087506375309250637530975063753102506375310750637531125063753117506375312250637531275063753132506375313750637531425063753147506375315250637531575063753162506375316750637531725063753177506375318250637531875063753192506375319750637532025063753207506375321250637532175063753222506375322750637532325063753237506375324250637532475063753252506375325750637532625063753267506375327250637532775063753282506375328750637532925063753297506375)))
 (.node 2 (.node 1 (.leaf 3302506375330750637533125063753317506375332250637533275063753332506375109250632510975063251102506325110750632511125063251117506325112250632511275063251132506325113750632511425063251147506325115250632511575063251162506325116750632511725063251177506325118250632511875063251192506325119750632512025063251207506325121250632512175063251222506325122750632512325063251237506325124250632512475063251252506325125750632512625063251267506325127250632512775063251282506325128750632512925063251297506325130250632513075063251312506325195250632519575063251962506325196750632519725063251977506325198250632519875063251992506325199750632520025063252007506325)
 (.leaf 2012506325201750632520225063252027506325203250632520375063252042506325204750632520525063252057506325206250632520675063252072506325207750632520825063252087506325209250632520975063252102506325210750632521125063252117506325212250632521275063252932506325293750632529425063252947506325295250632529575063252962506325296750632529725063252977506325298250632529875063252992506325299750632530025063253007506325301250632530175063253022506325302750632530325063253037506325304250632530475063253052506325305750632530625063253067506325307250632530775063253082506325308750632530925063253097506325310250632531075063253112506325311750632531225063253127506325))
 (.node 1 (.leaf 3132506325313750632531425063253147506325315250632531575063253162506325316750632531725063253177506325318250632531875063253192506325319750632532025063253207506325321250632532175063253222506325322750632532325063253237506325324250632532475063253252506325325750632532625063253267506325327250632532775063253282506325328750632532925063253297506325330250632533075063253312506325331750632533225063253327506325333250632507075062751092506275109750627511025062751107506275111250627511175062751122506275112750627511325062751137506275114250627511475062751152506275115750627511625062751167506275117250627511775062751182506275118750627511925062751197506275)
 (.leaf 1202506275120750627512125062751217506275122250627512275062751232506275123750627512425062751247506275125250627512575062751262506275126750627512725062751277506275128250627512875062751292506275129750627513025062751307506275131250627519525062751957506275196250627519675062751972506275197750627519825062751987506275199250627519975062752002506275200750627520125062752017506275202250627520275062752032506275203750627520425062752047506275205250627520575062752062506275206750627520725062752077506275208250627520875062752092506275209750627521025062752107506275211250627521175062752122506275212750627529375062752942506275294750627529525062752957506275))))
 (.node 4 (.node 2 (.node 1 (.leaf 2962506275296750627529725062752977506275298250627529875062752992506275299750627530025062753007506275301250627530175062753022506275302750627530325062753037506275304250627530475062753052506275305750627530625062753067506275307250627530775062753082506275308750627530925062753097506275310250627531075062753112506275311750627531225062753127506275313250627531375062753142506275314750627531525062753157506275316250627531675062753172506275317750627531825062753187506275319250627531975062753202506275320750627532125062753217506275322250627532275062753232506275323750627532425062753247506275325250627532575062753262506275326750627532725062753277506275)
 (.leaf 3282506275328750627532925062753297506275330250627533075062753312506275331750627533225062753327506275333250627533375062750357506225108750622510925062251097506225110250622511075062251112506225111750622511225062251127506225113250622511375062251142506225114750622511525062251157506225116250622511675062251172506225117750622511825062251187506225119250622511975062251202506225120750622512125062251217506225122250622512275062251232506225123750622512425062251247506225125250622512575062251262506225126750622512725062251277506225128250622512875062251292506225129750622513025062251307506225131250622519525062251957506225196250622519675062251972506225))
 (.node 1 (.leaf 1977506225198250622519875062251992506225199750622520025062252007506225201250622520175062252022506225202750622520325062252037506225204250622520475062252052506225205750622520625062252067506225207250622520775062252082506225208750622520925062252097506225210250622521075062252112506225211750622521225062252127506225294250622529475062252952506225295750622529625062252967506225297250622529775062252982506225298750622529925062252997506225300250622530075062253012506225301750622530225062253027506225303250622530375062253042506225304750622530525062253057506225306250622530675062253072506225307750622530825062253087506225309250622530975062253102506225)
 (.leaf 3107506225311250622531175062253122506225312750622531325062253137506225314250622531475062253152506225315750622531625062253167506225317250622531775062253182506225318750622531925062253197506225320250622532075062253212506225321750622532225062253227506225323250622532375062253242506225324750622532525062253257506225326250622532675062253272506225327750622532825062253287506225329250622532975062253302506225330750622533125062253317506225332250622533275062253332506225333750622510875061751092506175109750617511025061751107506175111250617511175061751122506175112750617511325061751137506175114250617511475061751152506175115750617511625061751167506175)))
 (.node 2 (.node 1 (.leaf 1172506175117750617511825061751187506175119250617511975061751202506175120750617512125061751217506175122250617512275061751232506175123750617512425061751247506175125250617512575061751262506175126750617512725061751277506175128250617512875061751292506175129750617513025061751307506175131250617519575061751962506175196750617519725061751977506175198250617519875061751992506175199750617520025061752007506175201250617520175061752022506175202750617520325061752037506175204250617520475061752052506175205750617520625061752067506175207250617520775061752082506175208750617520925061752097506175210250617521075061752112506175211750617521225061752127506175)
 (.leaf 2942506175294750617529525061752957506175296250617529675061752972506175297750617529825061752987506175299250617529975061753002506175300750617530125061753017506175302250617530275061753032506175303750617530425061753047506175305250617530575061753062506175306750617530725061753077506175308250617530875061753092506175309750617531025061753107506175311250617531175061753122506175312750617531325061753137506175314250617531475061753152506175315750617531625061753167506175317250617531775061753182506175318750617531925061753197506175320250617532075061753212506175321750617532225061753227506175323250617532375061753242506175324750617532525061753257506175))
 (.node 1 (.leaf 3262506175326750617532725061753277506175328250617532875061753292506175329750617533025061753307506175331250617533175061753322506175332750617533325061753337506175108750612510925061251097506125110250612511075061251112506125111750612511225061251127506125113250612511375061251142506125114750612511525061251157506125116250612511675061251172506125117750612511825061251187506125119250612511975061251202506125120750612512125061251217506125122250612512275061251232506125123750612512425061251247506125125250612512575061251262506125126750612512725061251277506125128250612512875061251292506125129750612513025061251307506125131250612519625061251967506125)
 (.leaf 1972506125197750612519825061251987506125199250612519975061252002506125200750612520125061252017506125202250612520275061252032506125203750612520425061252047506125205250612520575061252062506125206750612520725061252077506125208250612520875061252092506125209750612521025061252107506125211250612521175061252122506125294750612529525061252957506125296250612529675061252972506125297750612529825061252987506125299250612529975061253002506125300750612530125061253017506125302250612530275061253032506125303750612530425061253047506125305250612530575061253062506125306750612530725061253077506125308250612530875061253092506125309750612531025061253107506125)))))
 (.node 8 (.node 4 (.node 2 (.node 1 (.leaf 3112506125311750612531225061253127506125313250612531375061253142506125314750612531525061253157506125316250612531675061253172506125317750612531825061253187506125319250612531975061253202506125320750612532125061253217506125322250612532275061253232506125323750612532425061253247506125325250612532575061253262506125326750612532725061253277506125328250612532875061253292506125329750612533025061253307506125331250612533175061253322506125332750612533325061253337506125002250607510875060751092506075109750607511025060751107506075111250607511175060751122506075112750607511325060751137506075114250607511475060751152506075115750607511625060751167506075)
 (.leaf 1172506075117750607511825060751187506075119250607511975060751202506075120750607512125060751217506075122250607512275060751232506075123750607512425060751247506075125250607512575060751262506075126750607512725060751277506075128250607512875060751292506075129750607513025060751967506075197250607519775060751982506075198750607519925060751997506075200250607520075060752012506075201750607520225060752027506075203250607520375060752042506075204750607520525060752057506075206250607520675060752072506075207750607520825060752087506075209250607520975060752102506075210750607521125060752117506075294750607529525060752957506075296250607529675060752972506075))
 (.node 1 (.leaf 2977506075298250607529875060752992506075299750607530025060753007506075301250607530175060753022506075302750607530325060753037506075304250607530475060753052506075305750607530625060753067506075307250607530775060753082506075308750607530925060753097506075310250607531075060753112506075311750607531225060753127506075313250607531375060753142506075314750607531525060753157506075316250607531675060753172506075317750607531825060753187506075319250607531975060753202506075320750607532125060753217506075322250607532275060753232506075323750607532425060753247506075325250607532575060753262506075326750607532725060753277506075328250607532875060753292506075)
 (.leaf 3297506075330250607533075060753312506075331750607533225060753327506075333250607533375060753477506075108750602510925060251097506025110250602511075060251112506025111750602511225060251127506025113250602511375060251142506025114750602511525060251157506025116250602511675060251172506025117750602511825060251187506025119250602511975060251202506025120750602512125060251217506025122250602512275060251232506025123750602512425060251247506025125250602512575060251262506025126750602512725060251277506025128250602512875060251292506025129750602519725060251977506025198250602519875060251992506025199750602520025060252007506025201250602520175060252022506025)))
 (.node 2 (.node 1 (.leaf 2027506025203250602520375060252042506025204750602520525060252057506025206250602520675060252072506025207750602520825060252087506025209250602520975060252102506025210750602521125060252952506025295750602529625060252967506025297250602529775060252982506025298750602529925060252997506025300250602530075060253012506025301750602530225060253027506025303250602530375060253042506025304750602530525060253057506025306250602530675060253072506025307750602530825060253087506025309250602530975060253102506025310750602531125060253117506025312250602531275060253132506025313750602531425060253147506025315250602531575060253162506025316750602531725060253177506025)
 (.leaf 3182506025318750602531925060253197506025320250602532075060253212506025321750602532225060253227506025323250602532375060253242506025324750602532525060253257506025326250602532675060253272506025327750602532825060253287506025329250602532975060253302506025330750602533125060253317506025332250602533275060253332506025108250597510875059751092505975109750597511025059751107505975111250597511175059751122505975112750597511325059751137505975114250597511475059751152505975115750597511625059751167505975117250597511775059751182505975118750597511925059751197505975120250597512075059751212505975121750597512225059751227505975123250597512375059751242505975))
 (.node 1 (.leaf 1247505975125250597512575059751262505975126750597512725059751277505975128250597512875059751292505975129750597519725059751977505975198250597519875059751992505975199750597520025059752007505975201250597520175059752022505975202750597520325059752037505975204250597520475059752052505975205750597520625059752067505975207250597520775059752082505975208750597520925059752097505975210250597521075059752952505975295750597529625059752967505975297250597529775059752982505975298750597529925059752997505975300250597530075059753012505975301750597530225059753027505975303250597530375059753042505975304750597530525059753057505975306250597530675059753072505975)
 (.leaf 3077505975308250597530875059753092505975309750597531025059753107505975311250597531175059753122505975312750597531325059753137505975314250597531475059753152505975315750597531625059753167505975317250597531775059753182505975318750597531925059753197505975320250597532075059753212505975321750597532225059753227505975323250597532375059753242505975324750597532525059753257505975326250597532675059753272505975327750597532825059753287505975329250597532975059753302505975330750597533125059753317505975332250597533275059753332505975108250592510875059251092505925109750592511025059251107505925111250592511175059251122505925112750592511325059251137505925))))
 (.node 4 (.node 2 (.node 1 (.leaf 1142505925114750592511525059251157505925116250592511675059251172505925117750592511825059251187505925119250592511975059251202505925120750592512125059251217505925122250592512275059251232505925123750592512425059251247505925125250592512575059251262505925126750592512725059251277505925128250592512875059251292505925129750592519725059251977505925198250592519875059251992505925199750592520025059252007505925201250592520175059252022505925202750592520325059252037505925204250592520475059252052505925205750592520625059252067505925207250592520775059252082505925208750592520925059252097505925210250592521075059252952505925295750592529625059252967505925)
 (.leaf 2972505925297750592529825059252987505925299250592529975059253002505925300750592530125059253017505925302250592530275059253032505925303750592530425059253047505925305250592530575059253062505925306750592530725059253077505925308250592530875059253092505925309750592531025059253107505925311250592531175059253122505925312750592531325059253137505925314250592531475059253152505925315750592531625059253167505925317250592531775059253182505925318750592531925059253197505925320250592532075059253212505925321750592532225059253227505925323250592532375059253242505925324750592532525059253257505925326250592532675059253272505925327750592532825059253287505925))
 (.node 1 (.leaf 3292505925329750592533025059253307505925331250592533175059253322505925332750592533325059251082505875108750587510925058751097505875110250587511075058751112505875111750587511225058751127505875113250587511375058751142505875114750587511525058751157505875116250587511675058751172505875117750587511825058751187505875119250587511975058751202505875120750587512125058751217505875122250587512275058751232505875123750587512425058751247505875125250587512575058751262505875126750587512725058751277505875128250587512875058751292505875197750587519825058751987505875199250587519975058752002505875200750587520125058752017505875202250587520275058752032505875)
 (.leaf 2037505875204250587520475058752052505875205750587520625058752067505875207250587520775058752082505875208750587520925058752097505875210250587529525058752957505875296250587529675058752972505875297750587529825058752987505875299250587529975058753002505875300750587530125058753017505875302250587530275058753032505875303750587530425058753047505875305250587530575058753062505875306750587530725058753077505875308250587530875058753092505875309750587531025058753107505875311250587531175058753122505875312750587531325058753137505875314250587531475058753152505875315750587531625058753167505875317250587531775058753182505875318750587531925058753197505875)))
 (.node 2 (.node 1 (.leaf 3202505875320750587532125058753217505875322250587532275058753232505875323750587532425058753247505875325250587532575058753262505875326750587532725058753277505875328250587532875058753292505875329750587533025058753307505875331250587533175058753322505875332750587533325058753392505875108250582510875058251092505825109750582511025058251107505825111250582511175058251122505825112750582511325058251137505825114250582511475058251152505825115750582511625058251167505825117250582511775058251182505825118750582511925058251197505825120250582512075058251212505825121750582512225058251227505825123250582512375058251242505825124750582512525058251257505825)
 (.leaf 1262505825126750582512725058251277505825128250582512875058251982505825198750582519925058251997505825200250582520075058252012505825201750582520225058252027505825203250582520375058252042505825204750582520525058252057505825206250582520675058252072505825207750582520825058252087505825209250582520975058252952505825295750582529625058252967505825297250582529775058252982505825298750582529925058252997505825300250582530075058253012505825301750582530225058253027505825303250582530375058253042505825304750582530525058253057505825306250582530675058253072505825307750582530825058253087505825309250582530975058253102505825310750582531125058253117505825))
 (.node 1 (.leaf 3122505825312750582531325058253137505825314250582531475058253152505825315750582531625058253167505825317250582531775058253182505825318750582531925058253197505825320250582532075058253212505825321750582532225058253227505825323250582532375058253242505825324750582532525058253257505825326250582532675058253272505825327750582532825058253287505825329250582532975058253302505825330750582533125058253317505825332250582533275058253332505825339250582510875057751092505775109750577511025057751107505775111250577511175057751122505775112750577511325057751137505775114250577511475057751152505775115750577511625057751167505775117250577511775057751182505775)
 (.leaf 1187505775119250577511975057751202505775120750577512125057751217505775122250577512275057751232505775123750577512425057751247505775125250577512575057751262505775126750577512725057751277505775198250577519875057751992505775199750577520025057752007505775201250577520175057752022505775202750577520325057752037505775204250577520475057752052505775205750577520625057752067505775207250577520775057752082505775208750577520925057752952505775295750577529625057752967505775297250577529775057752982505775298750577529925057752997505775300250577530075057753012505775301750577530225057753027505775303250577530375057753042505775304750577530525057753057505775)))))))))))
 (.node 16 (.node 8 (.node 4 (.node 2 (.node 1 (.leaf 3062505775306750577530725057753077505775308250577531225057753127505775313250577531375057753142505775314750577531525057753157505775316250577531675057753172505775317750577531825057753187505775319250577531975057753202505775320750577532125057753217505775322250577532275057753232505775323750577532425057753247505775325250577532575057753262505775326750577532725057753277505775328250577532875057753292505775329750577533025057753307505775331250577533175057753322505775332750577510825057251087505725109250572510975057251102505725110750572511125057251117505725112250572511275057251132505725113750572511425057251147505725115250572511575057251162505725)
 (.leaf 1167505725117250572511775057251182505725118750572511925057251197505725120250572512075057251212505725121750572512225057251227505725123250572512375057251242505725124750572512525057251257505725126250572512675057251272505725197750572519825057251987505725199250572519975057252002505725200750572520125057252017505725202250572520275057252032505725203750572520425057252047505725205250572520575057252062505725206750572520725057252077505725208250572520875057252957505725296250572529675057252972505725297750572529825057252987505725299250572529975057253002505725300750572530125057253017505725302250572530275057253032505725303750572530425057253047505725))
 (.node 1 (.leaf 3052505725305750572531325057253137505725314250572531475057253152505725315750572531625057253167505725317250572531775057253182505725318750572531925057253197505725320250572532075057253212505725321750572532225057253227505725323250572532375057253242505725324750572532525057253257505725326250572532675057253272505725327750572532825057253287505725329250572532975057253302505725330750572533125057253317505725332250572510825056751087505675109250567510975056751102505675110750567511125056751117505675112250567511275056751132505675113750567511425056751147505675115250567511575056751162505675116750567511725056751177505675118250567511875056751192505675)
 (.leaf 1197505675120250567512075056751212505675121750567512225056751227505675123250567512375056751242505675124750567512525056751257505675126250567512675056751272505675197750567519825056751987505675199250567519975056752002505675200750567520125056752017505675202250567520275056752032505675203750567520425056752047505675205250567520575056752062505675206750567520725056752077505675295750567529625056752967505675297250567529775056752982505675298750567529925056752997505675300250567530075056753012505675301750567530225056753027505675303250567530375056753042505675314250567531475056753152505675315750567531625056753167505675317250567531775056753182505675)))
 (.node 2 (.node 1 (.leaf 3187505675319250567531975056753202505675320750567532125056753217505675322250567532275056753232505675323750567532425056753247505675325250567532575056753262505675326750567532725056753277505675328250567532875056753292505675329750567533025056753307505675331250567533175056751012505625108250562510875056251092505625109750562511025056251107505625111250562511175056251122505625112750562511325056251137505625114250562511475056251152505625115750562511625056251167505625117250562511775056251182505625118750562511925056251197505625120250562512075056251212505625121750562512225056251227505625123250562512375056251242505625124750562512525056251257505625)
 (.leaf 1262505625126750562519825056251987505625199250562519975056252002505625200750562520125056252017505625202250562520275056252032505625203750562520425056252047505625205250562520575056252062505625206750562520725056252952505625295750562529625056252967505625297250562529775056252982505625298750562529925056252997505625300250562530075056253012505625301750562530225056253027505625303250562530375056253042505625314750562531525056253157505625316250562531675056253172505625317750562531825056253187505625319250562531975056253202505625320750562532125056253217505625322250562532275056253232505625323750562532425056253247505625325250562532575056253262505625))
 (.node 1 (.leaf 3267505625327250562532775056253282505625328750562532925056253297505625330250562533075056253312505625108250557510875055751092505575109750557511025055751107505575111250557511175055751122505575112750557511325055751137505575114250557511475055751152505575115750557511625055751167505575117250557511775055751182505575118750557511925055751197505575120250557512075055751212505575121750557512225055751227505575123250557512375055751242505575124750557512525055751257505575126250557519825055751987505575199250557519975055752002505575200750557520125055752017505575202250557520275055752032505575203750557520425055752047505575205250557520575055752952505575)
 (.leaf 2957505575296250557529675055752972505575297750557529825055752987505575299250557529975055753022505575302750557530325055753037505575315250557531575055753162505575316750557531775055753182505575318750557531925055753197505575320250557532075055753212505575321750557532225055753227505575323250557532375055753242505575324750557532525055753257505575326250557532675055753272505575327750557532825055753287505575329250557532975055753302505575330750557533125055751077505525108250552510875055251092505525109750552511025055251107505525111250552511175055251122505525112750552511325055251137505525114250552511475055251152505525115750552511625055251167505525))))
 (.node 4 (.node 2 (.node 1 (.leaf 1172505525117750552511825055251187505525119250552511975055251202505525120750552512125055251217505525122250552512275055251232505525123750552512425055251247505525125250552512575055251992505525199750552520025055252957505525296250552529675055252972505525297750552529825055252987505525299250552531525055253157505525316250552531725055253177505525318250552531875055253192505525319750552532025055253207505525321250552532175055253222505525322750552532325055253237505525324250552532475055253252505525325750552532625055253267505525327250552532775055253282505525328750552532925055253297505525330250552533075055253312505525352750552535325055251077505475)
 (.leaf 1082505475108750547510925054751097505475110250547511075054751112505475111750547511225054751127505475113250547511375054751142505475114750547511525054751157505475116250547511675054751172505475117750547511825054751187505475119250547511975054751202505475120750547512125054751217505475122250547512275054751247505475125250547529675054752972505475297750547529825054753162505475316750547531725054753177505475318250547531875054753192505475319750547532025054753207505475321250547532175054753222505475322750547532325054753237505475324250547532475054753252505475325750547532625054753267505475327250547532775054753282505475328750547532925054753297505475))
 (.node 1 (.leaf 3302505475330750547535325054753537505475354250547510725054251077505425108250542510875054251092505425109750542511025054251107505425111250542511175054251122505425112750542511325054251137505425114250542511475054251152505425115750542511625054251167505425117250542511775054251182505425118750542511925054251197505425120250542512075054251212505425121750542512225054251227505425316750542531725054253177505425318250542531875054253192505425319750542532025054253207505425321250542532175054253222505425322750542532325054253237505425324250542532475054253252505425325750542532625054253267505425327250542532775054253282505425328750542532925054253297505425)
 (.leaf 3302505425353250542535375054253542505425107250537510775053751082505375108750537510925053751097505375110250537511075053751112505375111750537511225053751127505375113250537511375053751142505375114750537511525053751157505375116250537511675053751172505375117750537511825053751187505375119250537511975053751202505375120750537512125053751217505375122250537512275053751232505375316750537531725053753177505375319750537532025053753207505375321250537532175053753222505375322750537532325053753237505375324250537532475053753252505375325750537532625053753267505375327250537532775053753282505375328750537532925053753297505375330250537535375053753542505375)))
 (.node 2 (.node 1 (.leaf 3547505375106750532510725053251077505325108250532510875053251092505325109750532511025053251107505325111250532511175053251122505325112750532511325053251137505325114250532511475053251152505325115750532511625053251167505325117250532511775053251182505325118750532511925053251197505325120250532512075053251212505325121750532512225053251227505325123250532531975053253202505325320750532532125053253217505325322250532532275053253232505325323750532532425053253247505325325250532532575053253262505325326750532532725053253277505325328250532532875053253292505325329750532533025053253542505325354750532535525053253557505325106250527510675052751072505275)
 (.leaf 1077505275108250527510875052751092505275109750527511025052751107505275111250527511175052751122505275112750527511325052751137505275114250527511475052751152505275115750527511625052751167505275117250527511775052751182505275118750527511925052751197505275120250527512075052751212505275121750527512225052751227505275123250527516775052753197505275320250527532075052753212505275321750527532225052753227505275323250527532375052753242505275324750527532525052753257505275326250527532675052753272505275327750527532825052753287505275329250527532975052753302505275354750527535525052753557505275106250522510675052251072505225107750522510825052251087505225))
 (.node 1 (.leaf 1092505225109750522511025052251107505225111250522511175052251122505225112750522511325052251137505225114250522511475052251152505225115750522511625052251167505225117250522511775052251182505225118750522511925052251197505225120250522512075052251212505225121750522512225052251227505225257750522532025052253207505225321250522532175052253222505225322750522532325052253237505225324250522532475052253252505225325750522532625052253267505225327250522532775052253282505225328750522532925052253297505225330250522535475052253552505225355750522535625052253567505225357750522535825052251062505175106750517510725051751077505175108250517510875051751092505175)
 (.leaf 1097505175110250517511075051751112505175111750517511225051751127505175113250517511375051751142505175114750517511525051751157505175116250517511675051751172505175117750517511825051751187505175119250517511975051751202505175120750517512125051751217505175122250517532075051753212505175321750517532225051753227505175323250517532375051753242505175324750517532525051753257505175326250517532675051753272505175327750517535475051753552505175355750517535625051753567505175357250517535775051753582505175106750512510725051251077505125108250512510875051251092505125109750512511025051251107505125111250512511175051251122505125112750512511325051251137505125)))))
 (.node 8 (.node 4 (.node 2 (.node 1 (.leaf 1142505125114750512511525051251157505125116250512511675051251172505125117750512511825051251187505125119250512511975051251202505125120750512512125051251217505125322750512532325051253237505125324250512532475051253252505125325750512532625051253267505125327250512535425051253547505125355250512535575051253562505125356750512535725051253577505125358250512510675050751072505075107750507510825050751087505075109250507510975050751102505075110750507511125050751117505075112250507511275050751132505075113750507511425050751147505075115250507511575050751162505075116750507511725050751177505075118250507511875050753262505075326750507532725050753537505075)
 (.leaf 3542505075354750507535525050753557505075356250507535675050753572505075357750507510625050251067505025107250502510775050251082505025108750502510925050251097505025110250502511075050251112505025111750502511225050251127505025113250502511375050251142505025114750502511525050251157505025116250502511675050251172505025117750502532375050253242505025327250502532775050253282505025353750502535425050253547505025355250502535575050253562505025356750502510625049751067504975107250497510775049751082504975108750497510925049751097504975110250497511075049751112504975111750497511225049751127504975113250497511375049751142504975114750497511525049751157504975))
 (.node 1 (.leaf 1162504975116750497511725049751177504975170250497532375049753242504975324750497532525049753277504975328250497532875049753552504975355750497535625049753567504975106250492510675049251072504925107750492510825049251087504925109250492510975049251102504925110750492511125049251117504925112250492511275049251132504925113750492511425049251147504925115250492511575049251162504925116750492511725049251177504925324750492532525049253257504925326750492532725049253277504925328250492535225049253527504925354750492535525049253557504925356250492510625048751067504875107250487510775048751082504875108750487510925048751097504875110250487511075048751112504875)
 (.leaf 1117504875112250487511275048751132504875113750487511425048751147504875115750487511625048751167504875117250487532475048753252504875325750487532625048753267504875327250487532775048753282504875352250487535275048753532504875353750487535425048753547504875355250487535575048753562504875106250482510675048251072504825107750482510825048251087504825109250482510975048251102504825110750482511125048251117504825112250482511275048251132504825113750482511425048251147504825324750482532525048253257504825326250482532675048253272504825327750482532825048253517504825352250482535275048253532504825353750482535425048253552504825105750477510625047751067504775)))
 (.node 2 (.node 1 (.leaf 1072504775107750477510825047751087504775109250477510975047751102504775110750477511125047751117504775112250477511275047751132504775113750477511425047751147504775115250477511575047751162504775325250477532575047753262504775326750477532725047753277504775328250477535125047753517504775352250477535275047753532504775353750477535425047751057504725106250472510675047251072504725107750472510825047251087504725109250472510975047251102504725110750472511125047251117504725112250472511275047251132504725113750472511425047251147504725115250472511575047251162504725325250472532575047253262504725326750472532725047253277504725328250472535075047253512504725)
 (.leaf 3517504725352250472535275047253532504725105750467510625046751067504675107250467510775046751082504675108750467510925046751097504675110250467511075046751112504675111750467511225046751127504675113250467511375046751142504675114750467511525046751157504675325750467532625046753267504675327250467532775046753282504675349750467535025046753507504675351250467535175046753522504675352750467535325046750032504625003750462510525046251057504625106250462510675046251072504625107750462510825046251087504625109250462510975046251102504625110750462511125046251117504625112250462511275046251132504625113750462511425046251147504625123750462532625046253267504625))
 (.node 1 (.leaf 3272504625349250462534975046253502504625350750462535125046253517504625352250462535275046250032504575105750457510625045751067504575107250457510775045751082504575108750457510925045751097504575110250457511075045751112504575111750457511225045751127504575113250457511375045751142504575114750457534825045753487504575349250457534975045753502504575350750457535125045753517504575105250452510575045251062504525106750452510725045251077504525108250452510875045251092504525109750452511025045251107504525111250452511175045251122504525112750452511325045251137504525114250452534725045253477504525348250452534875045253492504525349750452535025045253507504525)
 (.leaf 3512504525105250447510575044751062504475106750447510725044751077504475108250447510875044751092504475109750447511025044751107504475111250447511175044751122504475112750447511325044751137504475114250447534675044753472504475347750447534825044753487504475349250447534975044753502504475350750447535125044751052504425105750442510625044251067504425107250442510775044251082504425108750442510925044251097504425110250442511075044251112504425111750442511225044251127504425346750442534725044253477504425348250442534875044253492504425349750442535025044253507504425104750437510525043751057504375106250437510675043751072504375107750437510825043751087504375))))
 (.node 4 (.node 2 (.node 1 (.leaf 1092504375109750437511025043751107504375111250437511175043751122504375231750437534675043753472504375347750437534825043753487504375349250437534975043753502504375104250432510475043251052504325105750432510625043251067504325107250432510775043251082504325108750432510925043251097504325110250432511075043251112504325111750432511225043251127504325217750432523175043253477504325348250432534875043253492504325349750432510575042751062504275106750427510725042751077504275108250427510875042751092504275109750427511025042751107504275111250427511175042751122504275112750427511325042751137504275114250427534775042753482504275104750422510525042251057504225)
 (.leaf 1062504225106750422510725042251077504225108250422510875042251092504225109750422511025042251107504225111250422511175042251122504225112750422511325042251137504225114250422510475041751052504175105750417510625041751067504175107250417510775041751082504175108750417510925041751097504175110250417511075041751112504175111750417511225041751127504175113250417511375041751042504125104750412510525041251057504125106250412510675041251072504125107750412510825041251087504125109250412510975041251102504125110750412511125041251117504125112250412511275041251132504125248750412524925041251042504075104750407510525040751057504075106250407510675040751072504075))
 (.node 1 (.leaf 1077504075108250407510875040751092504075109750407511025040751107504075111250407511175040751122504075112750407524875040752492504075249750407525025040751042504025104750402510525040251057504025106250402510675040251072504025107750402510825040251087504025109250402510975040251102504025110750402511125040251117504025112250402511275040252487504025249250402524975040252502504025358750402510475039751052503975105750397510625039751067503975107250397510775039751082503975108750397510925039751097503975110250397511075039751112503975111750397510475039251052503925105750392510625039251067503925107250392510775039251082503925108750392510925039251097503925)
 (.leaf 1102503925110750392534575039253462503925104750387510525038751057503875106250387510675038751072503875107750387510825038751087503875109250387510975038751102503875110750387511925038751197503875120250387512075038751212503875121750387510525038251057503825106250382510675038251072503825107750382510825038251087503825109250382510975038251102503825110750382511125038251192503825119750382512025038251207503825121250382512175038251222503825104750377510525037751057503775106250377510675037751072503775107750377510825037751087503775109250377510975037751102503775110750377511125037751192503775119750377512025037751207503775121250377510525037251057503725)))
 (.node 1 (.leaf 1062503725106750372510725037251077503725108250372510875037251092503725109750372511025037251107503725111250372511175037253492503725105750367510625036751067503675107250367510775036751082503675108750367510925036751097503675110250367511075036751112503675111750367525325036752537503675106250362510675036251072503625107750362510825036251087503625109250362510975036251102503625110750362511125036251117503625112250362510725035751077503575108250357510875035751092503575109750357511025035751107503575111250357511175035751122503575112750357511325035751422503575142750357514325035751437503575338750357533925035751082503525108750352510925035251097503525)
 (.leaf 1102503525110750352511125035251117503525112250352511275035251132503525113750352511425035251147503525115250352511575035251437503525144250352533875035253392503525109250347510975034751102503475110750347511125034751117503475112250347511275034751132503475111750342511225034251127503425000000000000000000000000000000000000000000000000000000000000000000000000000000000000000000000000000000000000000000000000000000000000000000000000000000000000000000000000000000000000000000000000000000000000000000000000000000000000000000000000000000000000000000000000000000000000000000000000000000000000000000000000000000000000000000000000000000000000000000000000))))))

end WG
