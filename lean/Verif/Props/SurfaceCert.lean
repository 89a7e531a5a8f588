import Verif.Model.DataTree

/-! Generated by `tools/gen_surface.py`. -/

namespace WG

set_option maxRecDepth 100000

/-- A certificate, checked in `Verif.Props.SurfaceCheck`: for every unit the last row of the routing order whose cell has the area of a
lake or reservoir of the unit, or 99999; 64 to a leaf, each as 5 digits. -/
def surfaceCert : DTree :=
 (.node 32 (.node 16 (.node 8 (.node 4 (.node 2 (.node 1 (.leaf 99999646966652265693630726280365238623556677966470665346626966686649826545362001659596029353978638576553255677599195863864007647526634161288667115751765811650706402753022665326450157536663666509362614582096399563677606274487866206620986373053976664275560844073669965911167351467665714854166651476623157300558426725266183)
 (.leaf 65247573186059462862352176527361435438536355845358614236584456719490176604258075638605703966708614056424957323578706599360485668095282966771547144421564284637576646852591597036445355334643896405258213638946614635960551164906064846565544353757097595355835143414659305534330955483093943165470563756074562075489386521955059))
 (.node 1 (.leaf 53171464925471058516633224795255357391573876952275485304535662152591445509761553595955808561306655891312460633655854518866246443704417564694210035681666320605825485961925582346118249064605544299360725671095668961299673045075835398651295930761504629056153455005558895589350775570635559357754556193400256999571795966466986)
 (.leaf 40440583606134556348616681600642982626055978666507550416456161329640676560864881437566257649276224905729959243643246075843311373586306147893650185743348926366686665336250479605092951784245364989149622332555338533264521725709965252615594303662966641244919749653621546116431218397495713562518451316204561866515095452147906)))
 (.node 2 (.node 1 (.leaf 65109539524458043967555644898450243572483365766881671504748165596535456480733191130864323134540431416147332390458564871049568490075994645327527852167248988638645219336231633871275252485442886481648487512126389234767319692296465000123023372143677525863543033924134924481466276524574602847901316205407766827493066688052782)
 (.leaf 42541432433317023778048955547958363526413283464282554316516650530417446320952540567186464252804383475576543717668423666448962603786452161784462183580852431454214892948315361426468855083642613883957964403252313433943598025625611258247743577155216522436072163895420476384067139672055537167063433435988850293586326376661057))
 (.node 1 (.leaf 44983671255263638904438453440658526486384520431138488033599439090385526318156163553563035348873589375602350161510316427567262549562359563103535393400122936318184427252892583676459448922587435758155491669305663146345445573467755354661955256766803666023538846486423384826130373236193468642256628275960241734631153670902739)
 (.leaf 52221417186269745169607835880046116645886181255415672393653750736671931987064971230225460067122531085024261440575095049666383615705734709748331771508731873597835459054513366006083945747330315562457088525705709059795552115729366288615463128762185621340566843424423923378832643567973392558320602580940549820334735760861991))))
 (.node 4 (.node 2 (.node 1 (.leaf 60892216555113314790548576070857957625254923259751534855954449433540566676353136513556713548827490624915265989488373415136593348276467056849460334512953876637926068762653343925091536538553826511245070332716469063554429816503050245438386730550717503123210965676640086611833990485436562842938312306239367297194745970453737)
 (.leaf 43629440686217548552642003392748668086546047464904381166578866716315923382558625492004971641624618083851162441340874367545437605856154963011344072295943346182432214536603559024958832397656875890605249542143565858450587284171322041613654679767321634105241457123668596203845001321103469465358670805575405423487053669233757))
 (.node 1 (.leaf 52382438036650365261534094245723630169345682957015441485553565472598684448855421362880879836209327826682158666197434429349656511653296557532432783412743425445885747744022527365549209744588851828920569512595938642799441995217152198451026235958609372436551244012479294883632596570866718660329380105951636298282554160555105)
 (.leaf 38028440116719862482405786251959759479566294015177633756524466275325986728944511554576583034979654235248243679444136151246263348021800956900424655538542989452713701259603570653385441244478645517731886139954922334842389833032010909335086702952807322162769219262643885720465663452180537942843644796542458804336665729843191)))
 (.node 2 (.node 1 (.leaf 60779535643438434199170994307762135576293505759698336675878136482555005272462921384996311163540602286307434171609344919830187625370274032668346042212744168403065296545042245566181737000541344913157741495055983255867578461306438348644475306642575331903285752306365925920132298435293275811989522456324449302417613139812618)
 (.leaf 13795589884915109746415074888703002558533173344658448655340158958327800418466739610386572356127050553145157014397145315616614627306138844213125551433216602086554642166311429405526534828648135852511801491085765113659607643393731413551595784962610056355526403920361596726408131535195739164968417644522909094072674421052097))
 (.node 1 (.leaf 59951359786724958438231571125618488151304828559492160044682250672070476207034080630044228934764527743302634396585616200760583630466253252864437540772966845605704299165761466703392963041440443334941215189023980409594479475210865900319773559647887337985782131981487081643751443485690544357189591913247451871520701814762859)
 (.leaf 44114601713527804257432295756763432415584799442535610003552060859433895296818286229501709730286217845072248317496251180618145563076464462164658040830843422112596348537055427400658264965343085661545000607316681143336627044864043715311364169662762671723512245784572524307865568520040973842941526764160210331633826103526519)))))
 (.node 8 (.node 4 (.node 2 (.node 1 (.leaf 43576433864217017881611334404559841657844473653242642285263905381477973912421785337956665961592545373197258531303884309358494604595795152542599655016833471567064335034761344095543332667615874971225303608960921643534218610772553518486663659458713056435579762797670913431562120285576666305639368446142762879226675785231600)
 (.leaf 22061487415304421961061213246966352561164233552637481836630251244436010641249649186086705658824509745602062533670673728534103276606345244180143314391762413322894918644732654174278857178482833401749648089993562459673649676671218011658930479748314044786075350484528021010963003423243400547800161021960749549575133013067071))
 (.node 1 (.leaf 61349447244229033193536185245666849412950663832762555275215656997428910564959821348344623509218222904880443390501094792531382101131161014395453324311732665326612961931955657836244932421444145312361419426072147333930487425167653317171505733952246101176726742360346913830745507524994337967220613824164230305316724554460017)
 (.leaf 49013348363435929987158650736810372653111843863782070572925467230396183269260715366995892232286491733177856174251046700539622079296237248502575594357713627575075486835128135244225949279331212175758377047215707399999635366219943680063355258452972655725255363420083145864532084444783200304786553776576905960061200959141329)))
 (.node 2 (.node 1 (.leaf 8505181513365052907542366245536659086601274948291471654213062086467622566043227101433599140891322674938167234361135240617666040025523413580642483597933265101815123143778467675719053246558701455419646336515329753092571084352857522488613428655100533373688349969345593357831795079374487148798517635802566822326912497817152)
 (.leaf 35145443311670365511585450494613279107105575758473324773403022873498152851441521164504983455978590731820538608659354424328422532396634737809465942339620894656915364027775348931518817930252776269244996290955726648380443263601921552446615765921439651483575614512148533650935661408292282951857608586084415379501994978428632))
 (.node 1 (.leaf 40042599371803544909627053430454679640534481355980498212276914338299771548306156452751709060473152513703861649574672184945185299311766149783648786159414885159215347857580211273586358684201175887765927530644514463171555631766258836234864762714380455384993115215504084153744748650513678741331558461750266062632745995336218)
 (.leaf 21831355873649818315661904155636442451423634236909218423701036161236294482855968461724034113586361766086646937117722825234532541014533929565504621216444916171076577418173370624596250081364492824914493588375759923646599052354845303280726079057557516251986219011090325881753429362585995423865598861913546153203981857562159))))
 (.node 4 (.node 2 (.node 1 (.leaf 35389537203637449859413341843215485449332708845392152091455132866501571441035823300420499934771152241694204785143280595136017159316074441061646996641166391225136450462601302415333665498143773632617903183091734516559180373700867148194866159119013375934566355997180314988819256194841975064099197474547637554536084988766861)
 (.leaf 67108193731871937654187276472650360184571802615471648804516065042201372112836544358031499336050600716425849341651411261335070356794466014732145661402714028356271440214205147575570914419145943595944629153101516535986153163639236068158235341036077361334501216651361395885253330365463626136372450751624253460657863688017187))
 (.node 1 (.leaf 18033185773770819839380513819020883537346008020371537753795219848198502011645903457802066162251537544571920142211012122321337217402194038247459556094838389507335614821107383372155121244461672278338867591015785357828387092221122370225492263938934223745616538682508873909323156233832293323300394082504259241258106027527067)
 (.leaf 54420515194733127170291496118130144302425277111407586980994012717127194413135115444005318313954151905880553270358221563957545500496082344901449991610716108500291580917214615935024963800173851780260004169321693737659192803760545982210412115459877556036038353395129645984935889643044479944624363491678336631181155599850562)))
 (.node 2 (.node 1 (.leaf 22034228713948666365257294039254374652122896441206594076307060860381095094964857662336576244768158203628415708588695350157807591055784838836667955399259118235143930024275511625798956480278856031766093582314165958637116561611962246577185933866832594195320053255323104267932869050024353936868368411345161573375971345436730)
 (.leaf 15519213413656215879162753716415319607201847218598632026599161394638025598158724348975960536613154876570244648352716085038018209025957616575262963741412346137531328859049209195977335277528875759129556135753538259931150295994734976533614500315958460985524955566464816179560303623716111560320581235657461800611106284053074))
 (.node 1 (.leaf 55810616024618636511114095746915352153571580236457169271722918204647175016617538204246732215784575471275362103522530478856941484944267832106485764857755062570180663148739551340686143043431396199763357077240814608147667095862264483630364941252987117744949612208614891239534906123966429212576125923505244285127431291435127)
 (.leaf 35186136434974913809139471399362668141663567635682147525328258822359481753515317533205749555733155473612860819361533617336205158071586336234557595885865698159665000944946161115339450031640681627064070500515887350066164423645450068164456516336505166075343245058652934507816938169461709117093367283678317381173821738436789))))))
 (.node 4 (.node 2 (.node 1 (.leaf 65863558555019217537452205351117630176655891660865452796269836965535331792850273180616701767034181745030753592372641865537343616201901853671504444561019366537075372445692505294574663826378524577720394203972041664733380544587720541381022076846008622575612846054384252144757796561385614063168217654618446273226502296223038)
 (.leaf 23131232132321760994236475101139293396194672239871399682564640009469665132462342580506358560290283412834241079659626034859362566265458441272476912920629922299495823030220302433025530306303073032547935622204163553312400756668252155437186558648870626506499248788666254871165380439451715466389651206574662627320944444358998))
 (.node 1 (.leaf 34759586116516258521317564318557136522055282334902359502339546919164066377322048160764165236263502670851665170491471845949245536076566165254083315571860087229704702736686460295780955422663174245557978603146722265913528676629162298592545519156468511794380448773537325075152862453256643638863570646124532472656654535567174)
 (.leaf 39117531815223732061672445017943802327611491243142672084487652526549155698257338529634330548930412405855057149672715865862586999994879630263366913380165451523546656567254652743295331390613443266655477092143208566759453316495010122610771670258710592515278833659575384898345394575633408567039430385250332781610630338161999)))
 (.node 2 (.node 1 (.leaf 57229326733372358927623203334237054671796080545008164585464261554472086476359372472336595863227602723883422754494134161639436236445404346784232875625223025539490594625392256475759437215454645758257528365766315738428386465107153124616536594053681645436530665179622141473561472636821597815821537105587215860183165897950481)
 (.leaf 59019532901632963455360796268267082539403819457756175512039038298224705067557745388262246937346194914977565622534614960999999622194574899999505646315121955217544582647388201303694299999587341672662711190206162250310184503694466136590295356019376666322012853951556693672115954167735101566401999999999956675476604764199999))
 (.leaf 56636592724726560694152363698463518382972406816565157785375266937559246619663777155702101021347456056433322043600916552336947631356454950445609001901960011456396660462683169316150513067641144622253386660090000000000000000000000000000000000000000000000000000000000000000000000000000000000000000000000000000000000000000000))))

end WG
