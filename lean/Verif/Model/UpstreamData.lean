import Verif.Model.DataTree

/-! Generated by `tools/gen_network.py`. -/

namespace WG

set_option maxRecDepth 100000

/-- The rows of `/repo/input_data/static_input/upstream_cells_for_grid_arcid.csv`, which are numbered from 1 on (`Arc_ID`), 16
to a leaf, read from the last digit on: the number of positive entries (1 digit), then these entries (5 digits each). -/
def upstreamData : DTree :=
 (.node 4096 (.node 2048 (.node 1024 (.node 512 (.node 256 (.node 128 (.node 64 (.node 32 (.node 16 (.node 8 (.node 4 (.node 2 (.node 1 (.leaf 0)
 (.leaf 0))
 (.node 1 (.leaf 0)
 (.leaf 601000591000581000571000561000551000541000531000521000511000501000491000481)))
 (.node 2 (.node 1 (.leaf 0)
 (.leaf 950020500204300000941000931000091100090001990019830000000019110))
 (.node 1 (.leaf 97002072000961)
 (.leaf 2591002581002571002561000000000000))))
 (.node 4 (.node 2 (.node 1 (.leaf 14110014010013910013810013710013610013510000134100133100002601)
 (.leaf 1481001471000))
 (.node 1 (.leaf 1741000017300316200000000000)
 (.leaf 193100192001902000018910018810018710018610018510018410003251003231003221003210032020)))
 (.node 2 (.node 1 (.leaf 208002062000002021000000197100196100001951001941)
 (.leaf 21710021610021510021410002121002111000))
 (.node 1 (.leaf 375100000)
 (.leaf 401100400100000000000000)))))
 (.node 8 (.node 4 (.node 2 (.node 1 (.leaf 271100270004162002691002681000412100267004110041030026610026500409200264004082002630040720026200406200261004052004041004031004021)
 (.leaf 43010015300429200152004282001510042720015000280200149002792002781001460027720014500276200144002752001430027420014200273200272004182))
 (.node 1 (.leaf 43910043810000)
 (.leaf 319100003181003171000315100314100031210031110031010000)))
 (.node 2 (.node 1 (.leaf 3361003351003340033220033110033010000329100328100000324100)
 (.leaf 349100348100347100346100203003452003441002010020000343300342100341100340100339100338100))
 (.node 1 (.leaf 542100541100540005392005381000000000213100000210002092)
 (.leaf 557100556100555100554100038010037700551200003760037420037310000372100))))
 (.node 4 (.node 2 (.node 1 (.leaf 573100572100571100570100569100568100393005672003920056620039100565200564100039000563005623003890056120038800560200387005592005581)
 (.leaf 4150058900588300414100413005872005861005851005840058320005821005811005801005791005781005771005761005751005741))
 (.node 1 (.leaf 4311000000000597100059510059410041900593200592005912004171005901)
 (.leaf 60710)))
 (.node 2 (.node 1 (.leaf 624006232006221)
 (.leaf 4811000000000000000))
 (.node 1 (.leaf 495100494100493100492100491100490100489100000004831004821)
 (.leaf 51110051000702200701100337100005071003330050620050510000049910049810049710))))))
 (.node 16 (.node 8 (.node 4 (.node 2 (.node 1 (.leaf 51810051700709200516100515100514100513100512007042)
 (.leaf 54310000000728007272000007241000))
 (.node 1 (.leaf 75110075010074910074810074710074610074510074410055300743200552005500074230007411005490074000739300548007382005471005461)
 (.leaf 7671007661007651007641007631007621007611007601007591007581007571007561007551000754007532007521)))
 (.node 2 (.node 1 (.leaf 7831007821007811007800077920007781007771007761007750077420007731007721007711007701007691007681)
 (.leaf 606100605100604100603100602100601007922000060000791200599007902005980059600789300788007872000786007852007841))
 (.node 1 (.leaf 62110062010061910061810000000061110061010060910)
 (.leaf 0))))
 (.node 4 (.node 2 (.node 1 (.leaf 0)
 (.leaf 66810066710000666100665100664008842000000))
 (.node 1 (.leaf 68110000680100679100000)
 (.leaf 5090050800700300699009192006980091820069710009160091520000009111)))
 (.node 2 (.node 1 (.leaf 72110000000007111007101000070710070610070510)
 (.leaf 73100949009483007301007290094700946300726100725100072300943200722100))
 (.node 1 (.leaf 9701009691009681009671009661009651009641009631009621009611000000)
 (.leaf 9861009851009841009831009821009811009801009791009781009771009761009751009741009731000972009712)))))
 (.node 8 (.node 4 (.node 2 (.node 1 (.leaf 10021010011010001009991009980099720009961009951009941009930099220009911009901009891009881009871)
 (.leaf 608100797100796100795100794010122007930101120010101000000010031))
 (.node 1 (.leaf 8081000000000800010182)
 (.leaf 0)))
 (.node 2 (.node 1 (.leaf 0)
 (.leaf 0))
 (.node 1 (.leaf 0)
 (.leaf 11181000089201115200891011142000889100888100887100008861008851000))))
 (.node 4 (.node 2 (.node 1 (.leaf 9131009121000910100909100000000000)
 (.leaf 92610092510070300924200923100922100000000917100914100))
 (.node 1 (.leaf 945011602009440094201159301158100094110094010093910093810000000070810)
 (.leaf 9600117620095901175011743009580117320095710095601172200737009550117101170400736009542007350095301169011684007340095220073300951011673007320095001166011654011641001163011622011611)))
 (.node 2 (.node 1 (.leaf 11921011911011901011891001188011872011861011851011841011831011821011811011801011791011781011771)
 (.leaf 12071012061012051012041012031012021012011012001011991011981011971011961011951011941011931))
 (.node 1 (.leaf 100710000000012160121520012140121320001211101210101209012082)
 (.leaf 1023101022101021101020101019100101710079901016200798010150123230101401231201013012302000010091010081)))))))
 (.node 32 (.node 16 (.node 8 (.node 4 (.node 2 (.node 1 (.leaf 10261010251010241)
 (.leaf 0))
 (.node 1 (.leaf 0)
 (.leaf 0)))
 (.node 2 (.node 1 (.leaf 0)
 (.leaf 111910132810111710111610000001112100011091011081011071011061))
 (.node 1 (.leaf 11371011361011351011341001341101129101128100011271011261011251000)
 (.leaf 921011442009200114320114210001141100011381))))
 (.node 4 (.node 2 (.node 1 (.leaf 138201381200138010137901378201377100137601375201374101373101372101371101370101157013692011561011550136820)
 (.leaf 139710139610139510139410139310139210139110139010013891013880138720138610013851013840138320))
 (.node 1 (.leaf 14131014121014111014101014091014081014071014061014051014041014031014021001401014002013991013981)
 (.leaf 142801427200121201426014253000142310142210014201014191014181014171014161014151014141)))
 (.node 2 (.node 1 (.leaf 10061010050100420000)
 (.leaf 12421012411012401012391012381012371012361012350144920123401448201233014470144630))
 (.node 1 (.leaf 14751000000000146801467200000)
 (.leaf 0)))))
 (.node 8 (.node 4 (.node 2 (.node 1 (.leaf 0)
 (.leaf 0))
 (.node 1 (.leaf 132710001326101325101324101113013232013221011110111020000000)
 (.leaf 13441013431013401000133910133810000000013301)))
 (.node 2 (.node 1 (.leaf 15861015851000000000114001139200134710134610134510)
 (.leaf 1601016002015991015981015971015961015951015941001593101367015922015911015900158920015881015871))
 (.node 1 (.leaf 16171016161016151001614101613016122016111001610101609016082001607016062001605101604016032016021)
 (.leaf 16331016321016311016301016291016281016271001626016252016241016231016221016211016201016191016181))))
 (.node 4 (.node 2 (.node 1 (.leaf 14211016470164620016441016431016421016411016401016391016381016371016361016351016341)
 (.leaf 1227014392012260143820122501437016630166240122401436201223014352012220143401660016594012210122001433301219014320165830121801431201217014300165530142910165401653200165201651200142401650016493))
 (.node 1 (.leaf 1454101453101452101451101450016752001674101673101672101445101444016700166930144310144210122901441201228014402)
 (.leaf 14731014720147020001469100000000000)))
 (.node 2 (.node 1 (.leaf 14761001474100)
 (.leaf 0))
 (.node 1 (.leaf 172510172401723200000000)
 (.leaf 152710152610001525101524100))))))
 (.node 16 (.node 8 (.node 4 (.node 2 (.node 1 (.leaf 13291015471015461000001543101542101541101540100)
 (.leaf 1567101566101565100015641013420156320177810177610000000))
 (.node 1 (.leaf 1800100001796100000015731015721000015681)
 (.leaf 18170181620181510181410181310181210000000180510000)))
 (.node 2 (.node 1 (.leaf 183210183110018301018290182820182710018261018250182420018230182220018211018200181920181810)
 (.leaf 18481018471018461018451018441018431001842018412018401018391018381018371018361018351018341018331))
 (.node 1 (.leaf 18631016450186220186110018591018581018571018561018551018541018531018521018511018501018491)
 (.leaf 1880100166101878018773000187501874201657101656018732001870100186901868200186701866200164801865018643))))
 (.node 4 (.node 2 (.node 1 (.leaf 1678101677101676100000167101888201887101886101668018852016670188420166601883018823016651016641)
 (.leaf 16961016931016921000000000000))
 (.node 1 (.leaf 17001000169910)
 (.leaf 1727100000000172110000000)))
 (.node 2 (.node 1 (.leaf 0)
 (.leaf 17471000))
 (.node 1 (.leaf 1775101774101773100000015481000154510154410)
 (.leaf 17871015710178620178510017831017821017811000178010177910)))))
 (.node 8 (.node 4 (.node 2 (.node 1 (.leaf 17971000)
 (.leaf 202902028200202702026200020231000202110000000))
 (.node 1 (.leaf 204410204310204210204110204010203910203810203710203610203510020341020330203220203110020301)
 (.leaf 20601020591020581020571020561020551020541020531020521020511020501020491020481020471002046020452)))
 (.node 2 (.node 1 (.leaf 187102076202075102074100207302072202071102070102069100206802067202066101860020652002064020632020621020611)
 (.leaf 208802087201881020860208530018790208420020830208220187602081202080100207902078020773018721))
 (.node 1 (.leaf 0)
 (.leaf 1701100019131019121016980191120191010000))))
 (.node 4 (.node 2 (.node 1 (.leaf 17221000019251000)
 (.leaf 19471019461000194510000000))
 (.node 1 (.leaf 0)
 (.leaf 17770198420000002166100000000)))
 (.node 2 (.node 1 (.leaf 1795101794100000019911017840199020198910198810000)
 (.leaf 201702202202016022012018110201502200301810018090201402199402013021980219730180801807020123018060201102196302010101804100180301802201801100017990179820))
 (.node 1 (.leaf 2020102019022042020181)
 (.leaf 22331022321002231022302022291022281022271000000000))))))))
 (.node 64 (.node 32 (.node 16 (.node 8 (.node 4 (.node 2 (.node 1 (.leaf 2250102249022482022471022461022451022441022431022421022411022401022391022381022371022361022351022341)
 (.leaf 2265102264102263100226202261200225910022580225720022560225520022541022531022520225120))
 (.node 1 (.leaf 18920209502281022804018910189002094301889020932000000022721002271022702022691002268022672022661)
 (.leaf 21131021121021111000000000000189402097201893020962)))
 (.node 2 (.node 1 (.leaf 0)
 (.leaf 23171))
 (.node 1 (.leaf 0)
 (.leaf 19871019861021731021721000217110217010000021651021641023671023661))))
 (.node 4 (.node 2 (.node 1 (.leaf 0)
 (.leaf 202210000000000240102400200239910219510))
 (.node 1 (.leaf 20251020241)
 (.leaf 2443102442102441102440102439102438102437102436102435102434102433100000)))
 (.node 2 (.node 1 (.leaf 2459024582002457102456102455024542002453102452024512024501024491024481024471024461024451024441)
 (.leaf 2475100247402473202472100247102470202469102468102467102466102465024642022601024631024621002461024602))
 (.node 1 (.leaf 228510228410228310228210002279102278102277102092022762020910227520209002089022743022731024761)
 (.leaf 0)))))
 (.node 8 (.node 4 (.node 2 (.node 1 (.leaf 251910251802517200023161023151000000000)
 (.leaf 2326102325100025201))
 (.node 1 (.leaf 0)
 (.leaf 0)))
 (.node 2 (.node 1 (.leaf 238210238110000000237410023721002370100)
 (.leaf 2396102395102394100000000))
 (.node 1 (.leaf 221310022120221120221010220910220810220710220610220510240610220310000240310)
 (.leaf 24301022261022251022241022231022220222120222010022191022180221702421302216102215024192022141))))
 (.node 4 (.node 2 (.node 1 (.leaf 266910266810266710266610266510266410266310266210266110266010265910265810000)
 (.leaf 26841002683102682026812002680102679102678102677102676026752002674102673026722026711026701))
 (.node 1 (.leaf 24791024781024771000002694102693100269202691202690102689102688102687102686026852)
 (.leaf 2484102483027052024820270420248102703202480027022)))
 (.node 2 (.node 1 (.leaf 2513102749100000000000000)
 (.leaf 27631002762102522027602025211000000025161025151025141))
 (.node 1 (.leaf 2541100000000027680276720027651)
 (.leaf 2559100025581000000000000))))))
 (.node 16 (.node 8 (.node 4 (.node 2 (.node 1 (.leaf 257210002571102570100000000)
 (.leaf 236510000258510258410002583100000))
 (.node 1 (.leaf 238002379200237702376200237510023731023711000236902368200)
 (.leaf 24021000023981023971000000000)))
 (.node 2 (.node 1 (.leaf 24180264020241710241610024150241420241310241210241110241010240910240810240710024051024041)
 (.leaf 2655102432102431026532026521002429102428102427102426102425102424024232024221002420026422))
 (.node 1 (.leaf 28940289320289210289110289010288910288810288710288610288510288410288310028811000)
 (.leaf 290910290810290702906200290510029041029030290220029011029001028991028981028970289620028951))))
 (.node 4 (.node 2 (.node 1 (.leaf 292510027010292320270002922029213026991026980291920269702918202696102695029172002916029150291430002913029122029111029101)
 (.leaf 2939029382000000000270602927200))
 (.node 1 (.leaf 0)
 (.leaf 2753102752102751102750100029691000000000)))
 (.node 2 (.node 1 (.leaf 276610027641000276110002982102759102758102757102756102755029762027541)
 (.leaf 300310002771100276910))
 (.node 1 (.leaf 2799102798102797100027961027951000000000)
 (.leaf 280910000002805102804100)))))
 (.node 8 (.node 4 (.node 2 (.node 1 (.leaf 2831100028301028290306320282810000282210002821102820100)
 (.leaf 3083100308110000030771000030680306720))
 (.node 1 (.leaf 26440264320026411002639028612026381026370285920026360263520000000)
 (.leaf 28791026570265620002654028752002651028732026500287220026491026481026471026461026451)))
 (.node 2 (.node 1 (.leaf 31290312820031271031260312520312410312310312210312110312010311910311810311710311610031141028821)
 (.leaf 31450314420314310314210314110314010313903138200313710031361031350313420031331031321031311031301))
 (.node 1 (.leaf 292610029241031561003154102920031532031521031510315020000031470314620)
 (.leaf 317510293110293010029281))))
 (.node 4 (.node 2 (.node 1 (.leaf 29591000295810319703196200031950319420003192100000)
 (.leaf 2977029752000297403215202973102972102971102968102967032100320930296610296510000029601))
 (.node 1 (.leaf 29911029901029891000298810298710298610029841000298110298010029781)
 (.leaf 300810000003002100000029941029931029921)))
 (.node 2 (.node 1 (.leaf 300910)
 (.leaf 303310000000))
 (.node 1 (.leaf 305710305610000000000000304110)
 (.leaf 307110307010003069103066100030651030641003062103059103058100)))))))
 (.node 32 (.node 16 (.node 8 (.node 4 (.node 2 (.node 1 (.leaf 285710003084100000000003076103075103074030722)
 (.leaf 287103104200287010286910286810286710286610286510286410286310286210286010309210285810))
 (.node 1 (.leaf 3353103352103351103350103349100311510031131028800311220287810028770287620002874031062)
 (.leaf 3369103368033672003366103365103364103363103362033612003360033592033581033571033561033551033541)))
 (.node 2 (.node 1 (.leaf 33741003373033720337130033701)
 (.leaf 2929103159103158103157100000))
 (.node 1 (.leaf 294010031781000000317410000)
 (.leaf 319910319810000031931000031910342420034231000))))
 (.node 4 (.node 2 (.node 1 (.leaf 32171032161003214103213103212034460344430297003211203208103207103206103205103204103203034372032021032011032001)
 (.leaf 322910322810322710298503226200298303224032223032211029790322020000))
 (.node 1 (.leaf 324610324510300410003243103242100000323510323410032321)
 (.leaf 0)))
 (.node 2 (.node 1 (.leaf 30361030351000032741000327310000000)
 (.leaf 304010030381))
 (.node 1 (.leaf 0)
 (.leaf 309603329203095103094103093100000000030821003080103079030782)))))
 (.node 8 (.node 4 (.node 2 (.node 1 (.leaf 3345103111031100334430310910031080310720003105033382031030333720031021031011031001030990333220309803331203097033302)
 (.leaf 35670356620356510356410356310356210356110356010355910000033481033471033461))
 (.node 1 (.leaf 33751003582103581035802003579035782035771003576103575035742003573103572103571103570103569035682)
 (.leaf 33891003155033872000000031490314820000)))
 (.node 2 (.node 1 (.leaf 3406100034051034041000000000033921)
 (.leaf 3425100003421100000000031771003176034082))
 (.node 1 (.leaf 34380343620343510343410343310343210343110343010003429103428036342034271034261)
 (.leaf 345710345610345510321903454203218034532034521034510365720345010344903655036543034481034470344503653036520365150034431034421034411034401))))
 (.node 4 (.node 2 (.node 1 (.leaf 32331003465103231103463103230100034591003225032232034581)
 (.leaf 3250103249103248103247100324410))
 (.node 1 (.leaf 36940369320036911000368810000000000)
 (.leaf 37201000000000000)))
 (.node 2 (.node 1 (.leaf 3328035352033270353420332603533200000000000)
 (.leaf 355310355210355110334303342035503035491033410334003548303339035472035461000333603543203335103334103333100))
 (.node 1 (.leaf 378703786200378503784203783103782103781103780103779103778103777103776103558037752035571035561035551035541)
 (.leaf 33770337603583300000037970379620379510037941037930379220037911037901037891037881))))))
 (.node 16 (.node 8 (.node 4 (.node 2 (.node 1 (.leaf 3598103391035972033901003388100338610338503593035913033840359020338303589203382035882003381033802033791033781)
 (.leaf 34071036141003612100036111000000000))
 (.node 1 (.leaf 363010362910342203628203627103626100000000)
 (.leaf 3647103646038682034390364503866300364310364210003641103640100363810363710363610036321)))
 (.node 2 (.node 1 (.leaf 366510366403662200036611036601036591036581003656100387310036501036491036481)
 (.leaf 3464103669103462036682034610366720366610346010))
 (.node 1 (.leaf 369510000036900393020368910000003685103684100)
 (.leaf 36971036961))))
 (.node 4 (.node 2 (.node 1 (.leaf 372210372110396410371910371810000)
 (.leaf 398410000000397510))
 (.node 1 (.leaf 354203760203541103540103539037572035380375620353703755203536037542037531037521037511000039931039921)
 (.leaf 377410377310377210377110377010376910376810376710376610376510354503764203544037630401230)))
 (.node 2 (.node 1 (.leaf 404204041200404010403910403810403710403604035200403404033204032104031104030104029104028100)
 (.leaf 3808038062038050405520358703586038043038030405320358503584038020405240380104051204050103799100004045104044100))
 (.node 1 (.leaf 38251000000381710381610381510035961035950359420038101035920380920)
 (.leaf 40971000409510000003613038292038281000038261)))))
 (.node 8 (.node 4 (.node 2 (.node 1 (.leaf 36350363303856303855038532038521003631038502000384910384810384710041011000)
 (.leaf 3871103870100036440386520386410386310412110038621036390386120386010385910))
 (.node 1 (.leaf 388510388410366303883203882103881041392038801038790413804137303878103877041362038761038751038741041311038721)
 (.leaf 41531000415010)))
 (.node 2 (.node 1 (.leaf 417510417410000)
 (.leaf 4209100393310003932103931039290420330420210039281039270419920368703686039263039251039241039231039221))
 (.node 1 (.leaf 4228100000042121042111042101)
 (.leaf 396310396210000395604240200039551039541))))
 (.node 4 (.node 2 (.node 1 (.leaf 398310398210000397610000397410397310039691039681)
 (.leaf 40011000003994100000039901003986100))
 (.node 1 (.leaf 401710401610401504297204014104013042962037620429520376104011042943040100429320400904292203759040082037581004005100400310)
 (.leaf 40221040211040201040191040181)))
 (.node 2 (.node 1 (.leaf 379804047204046100000000000000)
 (.leaf 3807104338104054100000380004049043323040481))
 (.node 1 (.leaf 3827040762040751000407410407310000000)
 (.leaf 4096040942000409310409210000000000)))))))))
 (.node 128 (.node 64 (.node 32 (.node 16 (.node 8 (.node 4 (.node 2 (.node 1 (.leaf 4395103854041122041111038510411020410910410810410710410604389043883004104043862041031041021004098100)
 (.leaf 412910412810386904127203867041262041251041241041231041220412020411910411804403204117104116043992038580385704115304114100))
 (.node 1 (.leaf 44251041401000004135100041341004130100)
 (.leaf 41611041600444220415910415810415504439204154104436100004151100000)))
 (.node 2 (.node 1 (.leaf 416510416410416310004162044442)
 (.leaf 446710446610044651))
 (.node 1 (.leaf 42011000420004490200419810419710419610419510)
 (.leaf 451310451210000004505045042042131045030450220000))))
 (.node 4 (.node 2 (.node 1 (.leaf 42410423904529300042381000000042290452020000422710)
 (.leaf 4256100000396703966039653042481042471000004242100))
 (.node 1 (.leaf 42701042691039850426820426710004266104265100426310426210425910425810425710)
 (.leaf 40060428920400404288204287104002042862042851000045651000000039911)))
 (.node 2 (.node 1 (.leaf 4007042912042901)
 (.leaf 43121004027043102040260430920402504308204024040230430730))
 (.node 1 (.leaf 433410433310043311000004043100432410000)
 (.leaf 43531043521000000000000043371043361)))))
 (.node 8 (.node 4 (.node 2 (.node 1 (.leaf 46511004649100004357104356104355100043541)
 (.leaf 46761041000409920438310438010437910437810437710004376104375100000))
 (.node 1 (.leaf 440110440004398204397104113104689046882043960439404686304393100043921043911043901004105104387043852043841)
 (.leaf 44151041330441404707304132044132044121044111044101044091044081044071000440610044040440204695300)))
 (.node 2 (.node 1 (.leaf 472410443104722204430047202044291044281044271044260471820044221044211044200471220441910004418044162)
 (.leaf 4449104448104447104446047382044450444320004733047322044411044400443820443704729204728104152044352044341044331044321))
 (.node 1 (.leaf 44640475604754304463104462104461104460100047490474820000445104744200044501)
 (.leaf 476804767200446910446810000))))
 (.node 4 (.node 2 (.node 1 (.leaf 44971000044911000479604795204489104488104487104486104485104484100)
 (.leaf 451110450810450710481204811200000450110450010449910449810480410))
 (.node 1 (.leaf 452710000452110000451910451810048200481920045141)
 (.leaf 45440484720454310454210454110454010453710004536100453210000)))
 (.node 2 (.node 1 (.leaf 48650486420004863104861104554048600485930455310455210004551104550104264100454510)
 (.leaf 457710457610457510000000000045641045631048671))
 (.node 1 (.leaf 430604305204304104303100430204301204300100429904298200000000)
 (.leaf 4321043200460730043191004318104317104316043152043141043131000431110000))))))
 (.node 16 (.node 8 (.node 4 (.node 2 (.node 1 (.leaf 43350462120000004330043290461530432810432704326046133046121043251004323104322046082)
 (.leaf 46411046401046391000000004629104628104627104626100))
 (.node 1 (.leaf 465310465210000465010046481046471046441046431000)
 (.leaf 4381100467110467010049811004980100000000)))
 (.node 2 (.node 1 (.leaf 4687100468510468405000204683104997100468210468110468010467910467810467704675049903046741043820467320)
 (.leaf 4704104703104702047002000469910440504698200469604694204693104692104691100046900500505004050034))
 (.node 1 (.leaf 471910047171047161000471505029204714104713047112047101044170470905024304708100470610470510)
 (.leaf 4736104735104734104731050482047301000004727050412047261047250503820047230472120))))
 (.node 4 (.node 2 (.node 1 (.leaf 47520506720475110475010004747104746104745047432047421050570505620047411047401047390473720)
 (.leaf 4761104760104759104758105074100475704755200475310))
 (.node 1 (.leaf 477410477310477210477110477010476910)
 (.leaf 4794104793104792104791100000)))
 (.node 2 (.node 1 (.leaf 48171048160514320481510004810100048091048081048071004805100480310)
 (.leaf 452810483110048271000048251048241051491051471004818100))
 (.node 1 (.leaf 484610484510484410000000000453104530048323)
 (.leaf 48621000048581048571048561048551048541000484910)))))
 (.node 8 (.node 4 (.node 2 (.node 1 (.leaf 5196100487010486910004868100)
 (.leaf 458804587204586100458504584048943045831045821048911045810458004890304579048892045781000000))
 (.node 1 (.leaf 46041046031046021046011046001045991045981045970459620045950459420459310045920459120459010458910)
 (.leaf 46190492720461804617049263049250525320461604924204614049232049220524920492105247204920052462046110461004919052454046090491805244304917052432049161049150524220460610460510)))
 (.node 2 (.node 1 (.leaf 49431049421000493910000000493210462304622049313049300525705256304929104620049282)
 (.leaf 49601049590529220495810495510495410464204953200004951100000))
 (.node 1 (.leaf 49770531120000049701000000496410496310496210496110)
 (.leaf 499210498910498810046721049871000053161004979100049781))))
 (.node 4 (.node 2 (.node 1 (.leaf 50010499920499810533210049951049941049931053261)
 (.leaf 5025050230535730502210502110502010501910501805352205017100470110501610501510004697050122050111050101))
 (.node 1 (.leaf 50391053730537220503710503610503510503410503310503210536705366200050301005028105027105026053602)
 (.leaf 5055100000050510538520505010504905047053813050461000504510504405377205043105042050402)))
 (.node 2 (.node 1 (.leaf 5071100540410507010506905402054013050680506605400305065105064105063105062053970539630506110506010505910505810539110)
 (.leaf 5089054302000000000005076100541010507505073054083050721))
 (.node 1 (.leaf 51031000510210050980544205441054404050970543920509605438205095054372050940543620509305435200050921050911050901)
 (.leaf 5449105106105105054482051041)))))))
 (.node 32 (.node 16 (.node 8 (.node 4 (.node 2 (.node 1 (.leaf 513710513610513510513410480605133200000000000)
 (.leaf 51520550805507305151105150051482055041051461005144100005142104814048132051401051391051381))
 (.node 1 (.leaf 5165105164105163100552205521205162100000051541051531048261)
 (.leaf 518310518210518110518010517910517805537200000484805173205172100)))
 (.node 2 (.node 1 (.leaf 51951000519410519310519210519110519010518910518810518710)
 (.leaf 521510488804887052143000000000000))
 (.node 1 (.leaf 4907104906104905049042004903049022049011004900048992048981048971004896048950522230004893048920521930)
 (.leaf 561205611200561005609200000052411049140491320049121049111049101049091049081))))
 (.node 4 (.node 2 (.node 1 (.leaf 526310526210005259105258100052551052541000525105615205250056142005248056132)
 (.leaf 49521004950100000005270100052691052681049410494020))
 (.node 1 (.leaf 529510529410005293100529110529010005285105284100052831052821)
 (.leaf 56860568505684300056821005681056792053031053021000530110056731052961)))
 (.node 2 (.node 1 (.leaf 5327100499105325205700056992053231005697105322105321100531710000531510)
 (.leaf 50090500805007305342105341105006053400571430533910500205338205337057112053361005334057082053330533120499605330205329057052053281))
 (.node 1 (.leaf 536105359205358105734105356057322053551005730057292053541053530535120535010534905726057253005014105013053482053471053461)
 (.leaf 53750575020537410574910053711053701053691057441057430574220536810005031053652053641053631053621)))))
 (.node 8 (.node 4 (.node 2 (.node 1 (.leaf 53901000505405389057633053881050530538705761305052053862005384105383105382053800575530005379105378053762)
 (.leaf 5409054070578330540610005403100005399105398105773100053941053931053921))
 (.node 1 (.leaf 54231058011005422105421100541710057951054161054151054121054111000)
 (.leaf 58161000000543410543310543210543105808200580710542810580505804205803058022)))
 (.node 2 (.node 1 (.leaf 5451105450100054471054461054451054441054431000)
 (.leaf 5864058630586230000005858100000000058421))
 (.node 1 (.leaf 58710587020058690586820005866058652054731054721)
 (.leaf 5505055030591330550210514505501200055001054991005141054972054961000000))))
 (.node 4 (.node 2 (.node 1 (.leaf 59311055201000005923105922059212055111055101055090591820000055061)
 (.leaf 553510000000000552510552410000))
 (.node 1 (.leaf 5553100555110005546105186055452051850554420518405543205542105541105540100055391055361)
 (.leaf 55610597120556010005559105558100055551055541)))
 (.node 2 (.node 1 (.leaf 52210558520522010052180521705582305216055812055801055791000000000)
 (.leaf 523710523610523510523410523310523210523110523005229200522805227205226100522505224205223100))
 (.node 1 (.leaf 52401056041052390523820)
 (.leaf 5261105260100056211056201005618105617105252056162))))))
 (.node 16 (.node 8 (.node 4 (.node 2 (.node 1 (.leaf 563310)
 (.leaf 56651000000000000000))
 (.node 1 (.leaf 56781000056741005672105671105670100056691056681056671056661)
 (.leaf 5692061062000005314105313053120568830568710060981005683060970609530)))
 (.node 2 (.node 1 (.leaf 61270612620571006125206124105335061232057090570706122306121061202005706057042057031000570206115205701105324100)
 (.leaf 614210572806141205727105724105723061390613806137405722105721105720105719105345053440571830534305717205716061320613106130405715100571306129061283057121))
 (.node 1 (.leaf 6156105741105740061542057391057380615120573710573606150205735057332000614510573110)
 (.leaf 5759105758100575605754061693057531057520616820575110005748100057471057461))))
 (.node 4 (.node 2 (.node 1 (.leaf 5776105775061892057740577206187305771061862053950577020576906183205768105767105766100057651057640576206176300)
 (.leaf 57931062041057891005787062020620130578610005785105784057820619806196405781105780105779105405057782057770619220))
 (.node 1 (.leaf 5809105806062220622130622006219200000580006214205799105798106212100579706210205796062090620830057941)
 (.leaf 582306237205822105821105820105819105818062332058170623220623110581510581410581310581206227200058111058101)))
 (.node 2 (.node 1 (.leaf 62540625320000625110624910058320624720583110583006244205829105828062422058271058261058251058241)
 (.leaf 62701000000062610626020062590625820005843058410625630))
 (.node 1 (.leaf 5867062832000062791062781058611006275105860105859062740627330)
 (.leaf 6306100630106300200062980629720062951006294062932000629110629006289205873105872062872)))))
 (.node 8 (.node 4 (.node 2 (.node 1 (.leaf 635006349200000000000000)
 (.leaf 591910000591706364205914100059111000591010590906355205908105498059072063521))
 (.node 1 (.leaf 59351059341059331055230593220000593010000000059201)
 (.leaf 5950105949105948105538105946100059451055340553320553210000059361)))
 (.node 2 (.node 1 (.leaf 555705556059673059661059651059641055521059621005550105548055470595730595610000)
 (.leaf 597610597510064191059721064171059701059691059681))
 (.node 1 (.leaf 55880558720558610005584059962055831059941059930644020599206439205991100000)
 (.leaf 56031005602056012005600105599105598105597105596105595105594105593055922005591055902055891))))
 (.node 4 (.node 2 (.node 1 (.leaf 5619060312060300647806477306029106028100000000056081056070560620056051)
 (.leaf 5632100000000648506484206483064822006033106032064802))
 (.node 1 (.leaf 6063100060620606006512300651010060580650806507300000000)
 (.leaf 60811060801060791000000000006066065172060651065161)))
 (.node 2 (.node 1 (.leaf 56800609606094306093065562000609210060881060871060860654920608510006084106083106082065442)
 (.leaf 56980611220611110061070657206571065704065691061051056910610406568305690061032056890610220610110610006565065643060991000))
 (.node 1 (.leaf 611910611810658110061171061160611406579300)
 (.leaf 61431066051000061400660120061361006598106135065962061341061331000))))))))
 (.node 64 (.node 32 (.node 16 (.node 8 (.node 4 (.node 2 (.node 1 (.leaf 6160105745061592061581061571066191061551006153066162061520661520614906613206148066112061471000614606144066083)
 (.leaf 5760106173106172105757061710663430617010616706631206166106165100616310616210616110))
 (.node 1 (.leaf 61841006182106181066452061800664420617910617810617710)
 (.leaf 6207066702062061062051066671062031000666410062001061991066611061970619520619410665610)))
 (.node 2 (.node 1 (.leaf 62231000006218066830668206681406217106216106215066802000667610621310062110667220)
 (.leaf 624010623910623806236067003062350669920000062301062291062281066911062261062251062241))
 (.node 1 (.leaf 6255100006716106252100625006248200624610624510062430670706706300624110)
 (.leaf 67660676520627210627110676310626910626806760200000672410000625710))))
 (.node 4 (.node 2 (.node 1 (.leaf 628610628510628406282206281106280100062771067691006276100)
 (.leaf 6305067970679630679510006793106792106299100062960678906788067874006292067862006785100628806783067823))
 (.node 1 (.leaf 6802106307068012068000679920679810)
 (.leaf 6828100633010632910632806825200006819100)))
 (.node 2 (.node 1 (.leaf 6351100000634810634710634610634510634410068400683920000)
 (.leaf 6367106366100000591605915063613063601059120635920635810635710635610000))
 (.node 1 (.leaf 68851000000006369106368068722)
 (.leaf 5947100000063861063851063841)))))
 (.node 8 (.node 4 (.node 2 (.node 1 (.leaf 64141064131000641010596310000000)
 (.leaf 643210000000064221064211064201006418100))
 (.node 1 (.leaf 600206001206000100599905998205997100059950644220000000643310)
 (.leaf 60170601620060151060141064611060130601220060111060101060091060081060071060061060051060040600320)))
 (.node 2 (.node 1 (.leaf 647510060271006026060252006024106023060222060211060201060190601820)
 (.leaf 6488106487106486100000648110))
 (.node 1 (.leaf 6511100070121065091000650610700807007200700607005200000)
 (.leaf 70301007028107027107026100702507024206520106519106518100065151065141065131070161))))
 (.node 4 (.node 2 (.node 1 (.leaf 65451006543100000704810000704510000)
 (.leaf 6555100065541065511065501006548100065471065461))
 (.node 1 (.leaf 6113065772065760708907088306575070870708630657410657310000656710708110065661065630707820656210656110)
 (.leaf 65910710620659010658910006588106587106586100658410065820658007095300006578070902)))
 (.node 2 (.node 1 (.leaf 66090660707121306606100660410660310660210007113071122066001065990659707111307110106595106594106593071082065921)
 (.leaf 66230713620000662110662010066181066171000661410712610661210066101))
 (.node 1 (.leaf 715210061750663920617407150206637106636106635066330714730006630106629106628106164066272066261066251066241)
 (.leaf 619306657066553066540716820619106190066533066520716520665110618810664910664810664710618506646200715810664310664210664107155071543066401))))))
 (.node 16 (.node 8 (.node 4 (.node 2 (.node 1 (.leaf 667106669071830718240666810718010666610666510000666307176071753066621006660071722066591066581)
 (.leaf 66881000000066791000667810667706675206674071890718830667310))
 (.node 1 (.leaf 670510670410670310670210670107213206698106234066972066961066951066941066931066921006690100)
 (.leaf 67190723220671810671710067150722920671407228200000670910670810000)))
 (.node 2 (.node 1 (.leaf 7249100000724507244200724310007239107238072372067231067221067211067201)
 (.leaf 72661007264100000674510000000))
 (.node 1 (.leaf 676710676410729007289206762106761072880728730072860728520000000)
 (.leaf 7310106784073092067810730820678010677910677810677707304073033067761067750730120677407300200677210677110677010067681))))
 (.node 4 (.node 2 (.node 1 (.leaf 73200731920679410073171067911067901073141073131073121073111)
 (.leaf 734310000733507334200068051068040733107330300068030732720))
 (.node 1 (.leaf 6832100736007359206829068272000682606824073553000682310682210682107350206818073490734830681710681607347073463)
 (.leaf 73751073741073731073721000006838106837073670736630683610683510)))
 (.node 2 (.node 1 (.leaf 686310686210068601068591068581068571063540635320068561068551068541068531000)
 (.leaf 687110687010636506869206868106363063622068641))
 (.node 1 (.leaf 68951068941068931068921000000006884100)
 (.leaf 69061069051069041000690310690210000)))))
 (.node 8 (.node 4 (.node 2 (.node 1 (.leaf 692710006926100069231069221064160641506921306920106919100641206411069173000)
 (.leaf 6441069452069441069431000000000000069281))
 (.node 1 (.leaf 64571064561064551064541064531064521064511064500644920695310644806447069523064460695120695010644506444206443106947074732069461)
 (.leaf 6472106471069742064700646906973075000749950697210646806467069710749840697010646606969074953064650646420646306967200646210064601069641064590645820)))
 (.node 2 (.node 1 (.leaf 647910698306981206476069802000697910647406473069783)
 (.leaf 70091000700410075291070030752807527307002100000000))
 (.node 1 (.leaf 70231070221075461000701810701710070150754120701410701310070111070100753607535300)
 (.leaf 75611007559075582000755607555207029100000))))
 (.node 4 (.node 2 (.node 1 (.leaf 705107598075973070501070491000070471070461075911000)
 (.leaf 6559106558106557100000070631070621070611000706010705910))
 (.node 1 (.leaf 7636076352076341070851070840763320708310000070801070791000707607624206560070752070741)
 (.leaf 71031071021071011071001065850709920709810709707645206583070962007094107093107092107091076390763830)))
 (.node 2 (.node 1 (.leaf 7119107118107117107116100000007109100007107071052071041)
 (.leaf 66220713520713410713310713210007131107130107129107128107127071250767430712410712310076691071201))
 (.node 1 (.leaf 7151106638100071491071480714607694306632071452071441000714110714010000)
 (.leaf 71690716720716607714200716410716307712206650071622007160107159100715710007156077042071531077001)))))))
 (.node 32 (.node 16 (.node 8 (.node 4 (.node 2 (.node 1 (.leaf 77301071811007179107178107177100000717410717310071711071701)
 (.leaf 66870720107199306686066850719830719710668410007193100007191107190107187107186077352071851071841))
 (.node 1 (.leaf 72161072150776320721407212077613000720910000720710720607204200066891072021)
 (.leaf 723110723007778200072271072260777520671307225206712072242067110722320671007222207221077700776930722010721910721810721710)))
 (.node 2 (.node 1 (.leaf 724710000072420779007789300724010072361072351072341072330778120)
 (.leaf 72650726320007262107261107260107259100072541007802107253072510780030725010072481))
 (.node 1 (.leaf 782710078250782420072721072711007821107270107269107268107267078170781630)
 (.leaf 729510729410729310729210729110000000007284100))))
 (.node 4 (.node 2 (.node 1 (.leaf 786610078640786320730710730607860200785910730507858078573000730207856078553067730729920729807853078523072971072961)
 (.leaf 732510000732310000073181007316107315078680786730))
 (.node 1 (.leaf 78971078961073421078951078930789220073361078901007333107332100073291073281)
 (.leaf 736110735810000735607354207908100735310073510790320079011007345079002073441)))
 (.node 2 (.node 1 (.leaf 79261007371073692000736807921079203000736507918079173073641073631073621)
 (.leaf 793310793210))
 (.node 1 (.leaf 68611)
 (.leaf 7425107424079672074231074221000000000000)))))
 (.node 8 (.node 4 (.node 2 (.node 1 (.leaf 743910743810743710743610007435100000743010742910742607969200)
 (.leaf 745710692506924074560745440000745210745110745010069181000000))
 (.node 1 (.leaf 7472080200801930747110747010746910746810000008005108004107458100)
 (.leaf 696206961200696007486206959074852069580748420695707483206956074822069550748120695407480207479107478107477106949074760802408023407475106948074742)))
 (.node 2 (.node 1 (.leaf 7503106977075022069760750120697510007497107496080442006968074942000696610069651069631)
 (.leaf 6986106985069842000698207507200075061))
 (.node 1 (.leaf 753310753210000753010000752610000)
 (.leaf 755108099080983075501075491075481075471080931075451070210702007544307543107019075420808930075401075391000))))
 (.node 4 (.node 2 (.node 1 (.leaf 8111100756208109200756010810710000755708103207554107553107552081002)
 (.leaf 813810000000000000))
 (.node 1 (.leaf 81560815420760010759908153207596100075951007593107592081472000000)
 (.leaf 76120816820081671076111076101076091076081070580760720705710000)))
 (.node 2 (.node 1 (.leaf 81881076311070820763020762908186207628107627107077076262000762310707310000)
 (.leaf 76491076481076471076460764420007643107642107641107640081962000763710081901076321))
 (.node 1 (.leaf 71150711420766110766010765910765810765710007654100076531076521076511076501)
 (.leaf 76791000767808235082343076771076761076750767320767208230207671107122076702007668100766610766510))))))
 (.node 16 (.node 8 (.node 4 (.node 2 (.node 1 (.leaf 76931076921000714307142076893007687107139076862071380713707685300768310768210768110)
 (.leaf 7711107710107709107161107707107706107705100770310770210770110825910769910769810769710))
 (.node 1 (.leaf 772710772610772510772410007723107722107721107720107719107718107717107716107715077130827130)
 (.leaf 719607745077433071950719420077421071920774108298082974077401077390773720082931077360773420773308290207732107731082882007729107728082852)))
 (.node 2 (.node 1 (.leaf 721107759207758083152072101077561072080775520775410775310720507752083093072030775120775010774910720007748207747107746100)
 (.leaf 777607774083323077730833120000777110776810776710776610776510007764083202007762077602))
 (.node 1 (.leaf 77911077880834720778708345207786083432077851077841077830834120778208339200007780107779077770833530)
 (.leaf 780908366083653083641000078040836020780307801200007799107798107797107796107793107246077922))))
 (.node 4 (.node 2 (.node 1 (.leaf 78231078221083781078201078191078181008373107815083722078141078131078121078111078101)
 (.leaf 78361078351000838810782910782810000))
 (.node 1 (.leaf 785410007851100784908407084063078481078470840520784610000)
 (.leaf 786510007862100000084141)))
 (.node 2 (.node 1 (.leaf 788910788810788707885207884107883100073260788020078781073240787720007322073212078750787320)
 (.leaf 7902100078991000789808455208454107894084532000000))
 (.node 1 (.leaf 84771079191000791608474207915107914084712079131073570791220791110791010790907907207906084660846530735207905084643079041)
 (.leaf 793410000079290848720792808486207927100007925107370079242079231079221)))))
 (.node 8 (.node 4 (.node 2 (.node 1 (.leaf 8516108515100851310851210085101000000000)
 (.leaf 796807966207965085372000796408535208534100000008528100))
 (.node 1 (.leaf 7983107982085552079811079800855220007979100079741008544107973107972079700854230854110)
 (.leaf 745508001200745310799810799710000000000079841)))
 (.node 2 (.node 1 (.leaf 80151000000080061000000)
 (.leaf 803210803110803008605208029108028086040860330802710802608602208025100080221080211000))
 (.node 1 (.leaf 8047108046108045100000804210749307492207491107490107489107488100748710)
 (.leaf 75111075101075091075081000750510750410805010804910))))
 (.node 4 (.node 2 (.node 1 (.leaf 80791075311080771080761080751080741080731000807210807110863410000)
 (.leaf 8095086612080941000080920865720809110808810808710080851075380753720080821075341080801))
 (.node 1 (.leaf 8110100008108081060867230810510008104108101100008097108096086622)
 (.leaf 8700100008697100000081191008680100081121)))
 (.node 2 (.node 1 (.leaf 8144087162081411000081390813708712308136108709100813510813408706200870408703200)
 (.leaf 81591081581081571000081551081521081511000815008722207594081492081480814620814510))
 (.node 1 (.leaf 8175087462000817410008169100081661081651000816410816310816208734087333)
 (.leaf 8193108192087632081910818908761300008187108756108185108184087552081830875420762508182200818010081761))))))))))
 (.node 256 (.node 128 (.node 64 (.node 32 (.node 16 (.node 8 (.node 4 (.node 2 (.node 1 (.leaf 8208108207108206108205108204108203108202108201108200087702081991081981081970819508767300081941)
 (.leaf 82231000766408222082203082191076630766208218300000821510076560765508213087844082121082111082101))
 (.node 1 (.leaf 82391082381076800823720823610008233108232088032000823108229208228088002082271008225107667082242)
 (.leaf 82541076960825320769508252088233082511082501082491082481076910824708819307690082462082451076880824420824310824208814208241107684082402)))
 (.node 2 (.node 1 (.leaf 82731082720827008842308841108268108267108266107708100826310826210826110008260082582082570882820)
 (.leaf 828710828608857200828410828310082811000828010827910827810827710082751082741))
 (.node 1 (.leaf 77440830308301300887110830010829910007738108295108294088650886430829110082891088591)
 (.leaf 83191083180888908888308317088872077570831608314088860888550831308884208312108311108310108880108308108307100083041))))
 (.node 4 (.node 2 (.node 1 (.leaf 83361008334108333108330108329107772083282083270889908898308326108325088962083241083231083221083211088911)
 (.leaf 8924089232077950779408352308351089222083501083491083481089180891720834608344089153000083420834008912300833808910208337089090890830))
 (.node 1 (.leaf 8369089392083680893820836710893610836308935089343083621000836108359089320893140008358100083551083541)
 (.leaf 8382108381108380100083791089491083771083761083751083741000083701)))
 (.node 2 (.node 1 (.leaf 784308401207842078410840030784008399200783907838083973083961078371008963108390108389089602008387108386108385089572083841)
 (.leaf 841310841210841110841010785008409208408100007845108403107844084022))
 (.node 1 (.leaf 78740843020787207871084293007870107869084262000842510000078610841820841710)
 (.leaf 844809020208447108446090172078860844508443300000788207881084403084391078791084371078760843608434300)))))
 (.node 8 (.node 4 (.node 2 (.node 1 (.leaf 846309036208462108461100845910008458108457090282084561090270902620845210845110078910844920)
 (.leaf 848110848009051208479108478100847609047208475100847309045090443084720847020008469090412084680904020846710))
 (.node 1 (.leaf 906810090671084920906420849110849010848910793107930084883000848510000084821)
 (.leaf 908410085111008509100000000907209071200090691)))
 (.node 2 (.node 1 (.leaf 85291090991090981090971009095109094109093109092109091109090109089109088108514090872090861090851)
 (.leaf 8545085432091151008540108539091122085381008536100000085300910220091011))
 (.node 1 (.leaf 8560108557108556100000855110008550100854610091171)
 (.leaf 857710857610857510080030800208573300080000799908570308569108568100008562100))))
 (.node 4 (.node 2 (.node 1 (.leaf 801608593208592100000000091531009152108578100)
 (.leaf 860810860710860610918009179200917810917710860110860010859910859810859710859610801808595208017085942))
 (.node 1 (.leaf 8048086232086221086211086201000804308619208041086182080401080391080381080371080361080351008034080332)
 (.leaf 863910086371086361086351092081000863310000000)))
 (.node 2 (.node 1 (.leaf 809010865310008086100808408083086500864840080811086451086441080781086421086411086401)
 (.leaf 86731008671100810208669208668108665108664108663092372000008660100))
 (.node 1 (.leaf 86871000000868110086791086781086771086761086751000)
 (.leaf 8705108702092760927530870110927310000869810092681000000))))))
 (.node 16 (.node 8 (.node 4 (.node 2 (.node 1 (.leaf 87201087191087181087171008140087152008711108710100008708100)
 (.leaf 87371000087311087301087291000872810872710872410000))
 (.node 1 (.leaf 875309324208181109322108177087482087471000087451008741100000)
 (.leaf 876808766093403000876510876410933509334208762087602008758100087571000)))
 (.node 2 (.node 1 (.leaf 8783093572000087811082090878020877910087771087761087751087741087731087721087710876920)
 (.leaf 8801087992087981082260879709371093694087961000082210879220879110879010008217087890878730821610821410))
 (.node 1 (.leaf 88150938820088131088121088111088101088091088081088071088061088051000880209375200)
 (.leaf 88311088300940220008827108256082550882630882510882410088221088211093931008820088182088171088161))))
 (.node 4 (.node 2 (.node 1 (.leaf 8849108848108276088472088461088451088441088431082690884009413094124088391088381088371082650883620826408835208834094062088331088321)
 (.leaf 829208863208862094342088611088600943320943110885810088561088550942820885410828208853208852100088511088501))
 (.node 1 (.leaf 887910887810887710830608305088763088750944820887409446208302088732088721000088700944120886910829608868208867094382088661)
 (.leaf 8895100889310889210000889010946109460209459109458094572094561088830945520888210888109454209453094522)))
 (.node 2 (.node 1 (.leaf 8913089110948430000890710890610890510890409477208903094752089020947420890110008900100)
 (.leaf 8929108357083560892830892709498208926108353089252000089211089200949120891910891610000))
 (.node 1 (.leaf 89451089441083710894320894010000950910893710089331000095021089301)
 (.leaf 895910953110089580895609529308955100895310895210895110895010000089471089461)))))
 (.node 8 (.node 4 (.node 2 (.node 1 (.leaf 840408977200897310897210008398089712000953910009535108962108961095332095321)
 (.leaf 84200899120841910089900898820841608415200000000898109558095573089801089791089781))
 (.node 1 (.leaf 843510084330843220008431090012090001089991084280899820842710089971084241084230842208421089954089941)
 (.leaf 845009023096003090220959920902109597209018100008444090162084420901520844109014209013109012108438090112090101)))
 (.node 2 (.node 1 (.leaf 96121090351090341084600903320903209608209031109030109029096062009025096032090241)
 (.leaf 84841084831000009050096272090491090480904609624309623100904309620209042100))
 (.node 1 (.leaf 9070109646100000906610906509063209062096402090611000906010090581)
 (.leaf 96651096640966320000096601090821000907710907610907510907410907310))))
 (.node 4 (.node 2 (.node 1 (.leaf 968110096781091001096770967620967510009674096732090960967220967110967010966910966810096661)
 (.leaf 9119109118100009116096930969230091141091131000911009687096863091091091080968409683309107109106096822))
 (.node 1 (.leaf 85611000913210913110913010008554108553091282091271091241000912309700209120096972)
 (.leaf 91510914920009148108574100085720857109144300091411000)))
 (.node 2 (.node 1 (.leaf 974309742209167100000000000915409727200)
 (.leaf 918210918109755200975410975310975210917609751209175097502091740974920917309748209172097472091711091701))
 (.node 1 (.leaf 86251086240919820000000861710861608615200861410861310861210861110861008609091843)
 (.leaf 921410921310863810092101092091000092070978120920610000)))))))
 (.node 32 (.node 16 (.node 8 (.node 4 (.node 2 (.node 1 (.leaf 865908658092333086560923209230309229108655086542000922510865208651200864909222209221108647086462092191092181086431092161)
 (.leaf 9246109245100867009243200092421086670866609239309238100000923510923409809098083))
 (.node 1 (.leaf 9265109837100000925710925610925509830209254109253109252109251109250109249108674092482)
 (.leaf 928110087071092781000092740927209851308699092712009269109846109267100092661)))
 (.node 2 (.node 1 (.leaf 8725092972087230929609874300872110929310009290100092871087140871309286309285098630986230928410928310)
 (.leaf 9311108739087382000930910873610873509307208732093062093031093021000008726092992092981))
 (.node 1 (.leaf 93290990620932810932709904209326109325093232009321099012093201093191093181093171093161000087401)
 (.leaf 9345100934310934210934109339099183000933810093361000933310875909332209331109330099092))))
 (.node 4 (.node 2 (.node 1 (.leaf 87881087860936020935909938208785093582093551000878210935310935210935110877810934910934810934709926099243093461)
 (.leaf 880409377209376093742099531009373109372093700995030093681087950936709947309366108794087932093641009362100))
 (.node 1 (.leaf 939110939010009389093872093861093850996520938410938310938210938109961209380109379099592093781009956099552)
 (.leaf 94051094041094031008829094012094001093991093981093971093961093951093941009392099712)))
 (.node 2 (.node 1 (.leaf 942310942210942110000209420109419109418109417109416109415109414099920999130941110941010940910)
 (.leaf 1001910944010943909437100173094361001620943511001410094321100101094301000920942910094271000720942610006100053094251094241))
 (.node 1 (.leaf 945110031209450110029100944909447200009445109444109443109442100212)
 (.leaf 94711094701094691004820889709468209467108894094662094651094641094631000946210100371100361100351)))))
 (.node 8 (.node 4 (.node 2 (.node 1 (.leaf 9488100672089140948720948610064209485094832000948210948110060209480109479109478094761005630009473109472100512)
 (.leaf 950510950410950309501209500100000949710949410009493109492094901007130948910))
 (.node 1 (.leaf 89480952020951910095171095161089420894109515095134095121095111095101000095081095071095061)
 (.leaf 9534100000095281095271000952410000)))
 (.node 2 (.node 1 (.leaf 897610897508974095523095511095501000010122100000009536101152)
 (.leaf 95691015620956809566209565108989100898708986095643089850956320956210898408983095613089820956020955910009556100))
 (.node 1 (.leaf 90070958510173309584109006095831017130900509004090030958240958110900209580209579095772009575109574109573100899610957210957110899308992095703)
 (.leaf 1018710090190959809596309595101841018330095931018120009592109591109590109589109588101761017530958710900909008095863))))
 (.node 4 (.node 2 (.node 1 (.leaf 9039090380961730090370961510203309614109613096111019930961010000096070960510195101944010193101922096040960220960110)
 (.leaf 9055096332090541090530905220000000962210000096191096181))
 (.node 1 (.leaf 964510010232102312096431096421096411102281009638100905910963510905709056096343)
 (.leaf 966210252102513000908309661200965911024510965510965410243102423096531096521096511096501096491096481)))
 (.node 2 (.node 1 (.leaf 102641010263100000102571025620010254102532)
 (.leaf 9695109694100000969110969010278209689109111096882096851102741027320000968010270102693))
 (.node 1 (.leaf 971310971210971110097071097061091291000912609125200009698100)
 (.leaf 972509723200915010000914709146097193091450971820971710303209143091420971610302103015097151097141))))))
 (.node 16 (.node 8 (.node 4 (.node 2 (.node 1 (.leaf 91690974510329309168097442001032510000000000097281)
 (.leaf 975810918310975610010340110339110338110337110336110335110334110333110332103312097461))
 (.node 1 (.leaf 91991009197109196109195100919409193209192109191091902009189097632009188091870976130918609185097603)
 (.leaf 921509790209789109788109212097872092111097851097841000097821000977910)))
 (.node 2 (.node 1 (.leaf 980710409104083092311009228109227098030980110405409226100980010922409223097993009220109794109793109217097922)
 (.leaf 9825109824098222092471009821109244100098151098141041620981310981210981110923609810200))
 (.node 1 (.leaf 104461104441010442100009831100982910009826100)
 (.leaf 9277109854109853109852098501045810457409849109270098482098471009845109844100098431044920))))
 (.node 4 (.node 2 (.node 1 (.leaf 92950929420987210987110476209292092912000928909288209866098641047230000092820986120985810928009279098573098561)
 (.leaf 931010009308098841049130930509883209882109304098812098801093011048710485300930009879098773098761000987510))
 (.node 1 (.leaf 99031099020990010509309899109898109897109896105042000098941105001000)
 (.leaf 992010527105263099190991720009337109915099132099121000991110517105163099100990810515309907100990510)))
 (.node 2 (.node 1 (.leaf 99370993520935610993310935410099321009930109350099290992730000009344099232099221)
 (.leaf 9951100009949109946105542099451093651009942109363099412093610994020000))
 (.node 1 (.leaf 99681099671057410572309966099642000099620996020099581000010561109954099522)
 (.leaf 998310998210099801099791099781099771099761099751009973109972100997010996910)))))
 (.node 8 (.node 4 (.node 2 (.node 1 (.leaf 1000110099991099981099971099961099951099941060020999310999010998910597200940810094070998520)
 (.leaf 10015100131062131001210106181100111061721000810616201061410100041061221000310611200100021))
 (.node 1 (.leaf 1003311003210030106391063840100281100271100261010632110025110024110023110022106292010020100181062631062410)
 (.leaf 10047110046100100431065021004210649210041110040110039106462100381064521064410000100341)))
 (.node 2 (.node 1 (.leaf 1006510672106713010063110062110061100591066730010058106642100571005510663300100541100531066021005210050210049106571065630)
 (.leaf 1008111008010687210079109499100781068531007710684106823100761094960949510075310074110073106791067831007210070210069106772000106741100661))
 (.node 1 (.leaf 9518110096110095109514110091110090100100891100881010084100100831100821)
 (.leaf 10111110110109530101092001010410952510103210102109523095222009521101012101001100991100981))))
 (.node 4 (.node 2 (.node 1 (.leaf 10736100010123101012110001011910724210116107222000101121)
 (.leaf 101451101441095551014310751107504095540955310142310141101074710746210745110744107432107421107411107401010738100))
 (.node 1 (.leaf 1076710101591101581076621015710095671015521015411015310101511014920010146100)
 (.leaf 101771078510784301078211017411078111017211077910778210170110169107761077531016810957810167209576101662101651101641101631101621)))
 (.node 2 (.node 1 (.leaf 1019111019010001018810101861101851095941018210791107904010180100101791101781)
 (.leaf 102091102081102071081421020610961610205210204102022102011081010809310200110808108072101981096091019720108051080421019610108001))
 (.node 1 (.leaf 9637096361022531022411022311022211022110963209631096301022010218509629102172102161096281021521021410962610213209625102122102111102101081920096211)
 (.leaf 10239110238110237100096471023610844310235110234109644102331084030001022910096391102261))))))))
 (.node 64 (.node 32 (.node 16 (.node 8 (.node 4 (.node 2 (.node 1 (.leaf 102551096671000102501102491085821024810010247108552001024410852108513102411102401)
 (.leaf 10271110268108782096791026721087410102661102651000102591000))
 (.node 1 (.leaf 9699110286110285109696102842001028310102791001027610000)
 (.leaf 109131103041091220103001091010909310299100102981102971102961000000)))
 (.node 2 (.node 1 (.leaf 1031610010315110314109726100972410972210097210972021030510)
 (.leaf 1094211094111094011093911093810937201093511033010000001032310))
 (.node 1 (.leaf 9767109766097652097641000976210009759103432097571034221034110000109431)
 (.leaf 1097510974200000010965100097731097721097711097701097691097681))))
 (.node 4 (.node 2 (.node 1 (.leaf 1038310978010382210381109902103801109881000001097810109771097620)
 (.leaf 979809797104013009796097952001039410979110393200103901103891097861103871103861097831103841))
 (.node 1 (.leaf 10413110412110411110410100009806098052104071098041040620980211040411040310)
 (.leaf 9828098272000098231000001041911041811041710)))
 (.node 2 (.node 1 (.leaf 104481104471044520000110411011040110392110371011036111035100)
 (.leaf 10465110464104622098551010461110460110459110581105731045610010455104532001045210104501))
 (.node 1 (.leaf 9873110478110477110761107530987010986909868104753098671047421047311071200986510471210470100986010468211066109859104662)
 (.leaf 1109711096200104921000104901109021048911048811108710987810486104843104831108411083310482100)))))
 (.node 8 (.node 4 (.node 2 (.node 1 (.leaf 105111105101050811109310507110506110505100009895105032105021105011010499110992104981)
 (.leaf 1052911128209921105281112730010525105232105221099161052121052010991410105191105181111720105141105131105121))
 (.node 1 (.leaf 99361009934105402001053910993110105361099281105341099251053321053211053110)
 (.leaf 10559110558110557100994811055611055510099441055120994311054910105471105461099391105441)))
 (.node 2 (.node 1 (.leaf 10575105732001057010996310105671001056610099571010562105602)
 (.leaf 99841059310591310590110589109981105882105871105861010584110583101058110997410580210579110578110577111772105761))
 (.node 1 (.leaf 10608110607110606110605110604110603110602112012106011059921059810105961000998809987099861059540)
 (.leaf 10623110622111222112212106201001061911218112173010615112162112151106131001061011060910))))
 (.node 4 (.node 2 (.node 1 (.leaf 10641112402106401123911238310637101063511063411063310011232110631110630101062811227210627106251122530)
 (.leaf 1065511065411065311254210045106522100441065120010648110647100000106431124311242112414106421))
 (.node 1 (.leaf 106731106701127020010669110668106662106651001066210010661111259110659110658112572)
 (.leaf 106831128421128310010681110680100010676110068106752112741)))
 (.node 2 (.node 1 (.leaf 10097107051070330010702110094100931070131009210700106983106971000106951100871008610694310085106931069131069010106881)
 (.leaf 1011410721210113100001071510010712107102001070910707210706100))
 (.node 1 (.leaf 1012010725211323110723113222000)
 (.leaf 1074911074810000000000))))))
 (.node 16 (.node 8 (.node 4 (.node 2 (.node 1 (.leaf 1076910001076510107631107621101521107601101501075921075811014810757210147113482107531107521)
 (.leaf 107831113741113731107801107771001077411077311136711366201077211077111016110160107703))
 (.node 1 (.leaf 108011079921079811392210797113911139031018910796210795113882107941107931138621079211138510107891107881001078710)
 (.leaf 1081511140711081311081211405210811114041140331140211140110113991108061113971010803113952108021)))
 (.node 2 (.node 1 (.leaf 10833110832110831110830110829114221142131021910828210827110826100010822110821110820100)
 (.leaf 1084910847210846110845100010843101084110839114333102301010838110837101022710835210834114262))
 (.node 1 (.leaf 1086311086211086111455114543108601001085910857200108561085420001085011444200)
 (.leaf 10272101087911147011087711087611087510873114683108721108711146511464310262108702102611086911463310868114621146131026010867210258108661146031086511086411459114583))))
 (.node 4 (.node 2 (.node 1 (.leaf 1028710108931000102821102811028010888310887110886110277108852001027511088310)
 (.leaf 1151010109111109081150620010907110906110905115032115021000000))
 (.node 1 (.leaf 1092210010921100011513110914100)
 (.leaf 11537100115351115341115331115321153120115301152921093610103281093421032710933115253103261093220103241)))
 (.node 2 (.node 1 (.leaf 1034710951210346110345103441094930109471154021094611539210945110944115382)
 (.leaf 115621156120109721155920010971115572115561155521155411096611553200001096310))
 (.node 1 (.leaf 1099110011573110989115722000000115671156621097911156410115631)
 (.leaf 103981103971103961103951110031110021103921100121039111099910103881099720109951103851109931109921)))))
 (.node 8 (.node 4 (.node 2 (.node 1 (.leaf 104151041411023311022111021100011019111018111017101101510110131104021104001103991)
 (.leaf 116231110381116201000011617101103011102911102811102710110251110241))
 (.node 1 (.leaf 10454111053111052110451110512116351163420110501163321104911104811104711104611629211045111044116272104431104311626116254110421)
 (.leaf 110731110721107011653300104691106911652310467110682110671106511650311064111648101046311063200001105611640116393)))
 (.node 2 (.node 1 (.leaf 1108810110861110851166621108211108111665211080110481104801047931107810000011074116572)
 (.leaf 1110311110210111001116811110981110951167921109411109311109210116751110911108920))
 (.node 1 (.leaf 1112011111911702211118111161170011699411115111114111113100111121111111169421111011108116923111071111061111051111041)
 (.leaf 1113711113611053511135211134117172111331171521113211053011131211130111129117112111261170921112511052411124211123117072111221111211170620))))
 (.node 4 (.node 2 (.node 1 (.leaf 1055211055011114911054811148201114611114511054511144210543111142110542105411114130011140111382105381053720)
 (.leaf 10568111672111661111651174821056511056411163210563111622111611111601001115911115810011153110553111522))
 (.node 1 (.leaf 1118211058211181211180117642111791111781011176111175101117311117211117111057110105691)
 (.leaf 1119911119810011195110594111942001059211193211192111902011188111187101058510)))
 (.node 2 (.node 1 (.leaf 117991179821121411121311121210011211111210111209117922112081011206111205111204111203111200117842)
 (.leaf 11231111230118132112291181221122810112261122411809311223111806101122011121911803201180110))
 (.node 1 (.leaf 1124711124611829211245111244111825100011237118212106361123621123511123411123310)
 (.leaf 11261100000011256118391183831125511253211252111251111250111249111248118312)))))))
 (.node 32 (.node 16 (.node 8 (.node 4 (.node 2 (.node 1 (.leaf 11281118632112801112791186121127811127711127611127510112731185611855311272118542112711126911852311268111267100112661)
 (.leaf 1129511069610010692112932112921106891129111289301128711128611068611285200000))
 (.node 1 (.leaf 11311101071111131011130911070811308113063001070411303200011301110699113001129830112961)
 (.leaf 113291001132410011321100113201113191107201010716100)))
 (.node 2 (.node 1 (.leaf 113431001134210113401133821133711133610001133411073911333211332110737113312113301)
 (.leaf 1076811136011135911934210764113581193131135711135611135511076111135310113511113501107561134921075510754211345111344119192))
 (.node 1 (.leaf 11377119502113761113751113721113711113701000113681001136511136410113621)
 (.leaf 113931119671113891011387111962111960111384111383111382100113811113801107861137911954119534113781))))
 (.node 4 (.node 2 (.node 1 (.leaf 11984111408111982111406111979119782000011400113981197431197310011396119712011394119692)
 (.leaf 120001011423111420111994101141911082510824114183108231141721141611141511990211414111413119882108181141211410310817114092108161))
 (.node 1 (.leaf 114381201221143711084211436211435111434114322001143111083610011427114252114241)
 (.leaf 114561114531114521114511202812027311450111449111448120232114471108531144612021311445100011441110848114402)))
 (.node 2 (.node 1 (.leaf 114731011469100114661000000001145710)
 (.leaf 114891108941000001148011147910010884100108821088110880114754114741))
 (.node 1 (.leaf 1150511150412083200115011000000001149012066200)
 (.leaf 1151410115121115111209220001150910115071208620)))))
 (.node 8 (.node 4 (.node 2 (.node 1 (.leaf 1211311211211211110000011527100000)
 (.leaf 11552110964100000115431109501154221094811541200001153612115121143))
 (.node 1 (.leaf 1214111156511213910121381213720115601121351001155810000)
 (.leaf 115831109981115811109961115791109941115771011575111574100001157110)))
 (.node 2 (.node 1 (.leaf 11600111020111598111597111596111016115952115941110141159321159210110041115871115861115851110001)
 (.leaf 1160911160811160711160611102611605201160311160212180211601121791217830))
 (.node 1 (.leaf 1163210116301001220712206212205112204111624116222116211011619111618100)
 (.leaf 11647111646100110621106111060116454116441222321105911643211642122212116411222021163812219211055116372110541163620000))))
 (.node 4 (.node 2 (.node 1 (.leaf 1107911662200110771166111659300116581165620011655111654100116511164912231122304122281)
 (.leaf 12259111678111677100116761167412256122554116731122541225320116721116711116701225021166911166811166712247211664122462))
 (.node 1 (.leaf 1169510116931169112272122714116901116891116881116871011685100111011168412264122634116831226212261311682116802)
 (.leaf 117131117121171012291301170812289200012286111705122842117041117031228321228211170112281122803116981227921227810)))
 (.node 2 (.node 1 (.leaf 111431172621172510117231111391011722117202001171910011716122962011714122932)
 (.leaf 1174310011742101115711156111551174041173911737211154117362117351111511173421115011173211173111114711172910))
 (.node 1 (.leaf 117601117571111741001117011755117533117521111691175121116811750211749101116410117471117441)
 (.leaf 11777111774111191111189117722001118611177011768211185117672111841118311766123464117651001176211176110))))))
 (.node 16 (.node 8 (.node 4 (.node 2 (.node 1 (.leaf 11793101179111120711178911178811178711236511120211785201178111178011119711196117793000)
 (.leaf 1180711805211804101238310118021238212381312380111800111797111796111795100117941))
 (.node 1 (.leaf 11823124022118221182021181911181810001181610118141000118081)
 (.leaf 11841111840124201241931183712418211836111835111834111833111832124122001241012409211830118281240831182710011826118242)))
 (.node 2 (.node 1 (.leaf 1185710118531243512434300124311118511118501118491112651126411263118484112621184720112601184520011258118422)
 (.leaf 112881187121187011245012449201186710011282118662118651118641186220001186012440211859111858124372))
 (.node 1 (.leaf 113051188720113041113021188620118821112991188121188012461211297118791246012459411878111877124572112941187620001129011874118723)
 (.leaf 1190010001189411189310011892111307111890118882))))
 (.node 4 (.node 2 (.node 1 (.leaf 1192111191810011917111341111339100011335100000)
 (.leaf 113611193712506311936111935119332119321000011354119291249812497411928111352119272119261119251249321192411192311134711346119223))
 (.node 1 (.leaf 11951101194910011948111947111946111369119452119441119431251312512311942111941111940125101250931193912508211363119382)
 (.leaf 11968101196611196511196411196311961125333011959100011957111956125261252531195510)))
 (.node 2 (.node 1 (.leaf 11985101198311981200119801119771254721197611197510000119721125411119701)
 (.leaf 12001119992000119971119961119951199321199212563211991100011989112557111987111411119862))
 (.node 1 (.leaf 12016112015111439120142120131012009100012007112006111430114291142831200411200312572212002125702)
 (.leaf 1203111203010001202612597212025112024125961259430120221012020112019111443120182120171114421)))))
 (.node 8 (.node 4 (.node 2 (.node 1 (.leaf 1204711147212046211471120452001204211146712041212040112039112038126092120371120361120351260712606312034112033126041260330)
 (.leaf 1206410000011482111481120552000114781205321147711476120523120511120501))
 (.node 1 (.leaf 12075112074100120731000120671000)
 (.leaf 12094100120931266120120911012658126572120881265621150812087120851265541208410000)))
 (.node 2 (.node 1 (.leaf 12108112107111528112105111526121042000000)
 (.leaf 1212911212810000001211911211811211711211610000))
 (.node 1 (.leaf 12140100012136100012134101213210121301)
 (.leaf 11582112158111580101157812155212154111576112152100012150112149127162121481121471121461))))
 (.node 4 (.node 2 (.node 1 (.leaf 1217711159912176212175100121721274021217111217011216912738200121641121631121621115841121601)
 (.leaf 121911001219010121861121851121841121831121821121811275121160410000))
 (.node 1 (.leaf 12209111628122081277830001277411220312201212200100012198112197127671276631276511276410)
 (.leaf 122241222212794312793100122181122171122161001221511221411221312783211631122122122111122101)))
 (.node 2 (.node 1 (.leaf 1166012240122383001223510012234101223212801200122291222721222611222510)
 (.leaf 1225212821212251101224911224812817212245128162122441122431281421166312242200))
 (.node 1 (.leaf 1284211227011226912841128393122681122671128361116861122661122651128331283220122601283020122581122571128271)
 (.leaf 1227712849211697122762116961227521227411227310)))))))))
 (.node 128 (.node 64 (.node 32 (.node 16 (.node 8 (.node 4 (.node 2 (.node 1 (.leaf 11724123022011721100128691117181229821229710122951122941012292122901286130122881)
 (.leaf 11741123212117381232021231911231811231712315212314111733123132001173012312212309112308111728117271230731230610123041))
 (.node 1 (.leaf 117561011754123331290331233211233111233011232911232811232710011746117452123251123241123231123221)
 (.leaf 1177111176912350123483123471012345112344111763123432123421123411123401123391117591175812338300)))
 (.node 2 (.node 1 (.leaf 12369112368129381293731236711178612366123643117831236321178211236110012360111778123592012357111776117752117731123521)
 (.leaf 1238410000123791123781237620000012372112371111790123702))
 (.node 1 (.leaf 1239811239711181712396212395111815123942123931296521239212964201181111239111181012390212389112388100)
 (.leaf 12415112414129852124131012411129812000001240711240612404201297411240312401129713124001))))
 (.node 4 (.node 2 (.node 1 (.leaf 13000112430112429129982124281124271118461242621184412425129943118431242421242311242211242111298911241712988212416129862)
 (.leaf 1244710001244311244210012441101300811243812436200124331300513004130034124321))
 (.node 1 (.leaf 11885118841246313035130345118831246220001245811302813027212456130262118751245521245411245313023211873124522124511001186911868124483)
 (.leaf 1190610000000011891111889113039130382124671124661124651124641)))
 (.node 2 (.node 1 (.leaf 12495100124921001249111192012490124883000119161000119071)
 (.leaf 13073112511101250713071130703012505130691306831250413067130663001250310125011119301250021249913060130593124961))
 (.node 1 (.leaf 1252911195812528130893125271125241125231119521252213085312521112520100125191125181307921251713078212516130772125151307621251413075130743)
 (.leaf 12544101254210012539125372125361001253510012532112531112530130922)))))
 (.node 8 (.node 4 (.node 2 (.node 1 (.leaf 12559101312013119212558125561311831255511255411255311255211255111255011254913113131113125481131101310921254611254510)
 (.leaf 125771120051001257312571131343001199811256710131291125661312821256513127212564125621312531256110))
 (.node 1 (.leaf 12590112589131522125881315021258711258611258513148212584112583112582100120111201012581312580112579112008125782)
 (.leaf 13169112608100126051120321260221260113164212600131632125991120291259813161131604001259510125931125921)))
 (.node 2 (.node 1 (.leaf 12049120481262031261713179212616112615131781317731261411204412043126133126121126111000)
 (.leaf 12640112637112068100120651263520126331120601120591120581120571012056126252120541))
 (.node 1 (.leaf 12082112081100012076100000)
 (.leaf 1267310000126661126651001266411266311266210012090120892132141))))
 (.node 4 (.node 2 (.node 1 (.leaf 12687112686112685100126841126831126821323913238312681132372126801121101210912679132364126781323521267713234212676112106126752126741)
 (.leaf 12133127012127001121311126981001212712695200012689112120126882))
 (.node 1 (.leaf 1271911215111271710001271511271411271310000000)
 (.leaf 12737112736132932132921001273010121611127271121591127251121571127231121561127211121531)))
 (.node 2 (.node 1 (.leaf 127501330821274911274810012747112746112745112744112174121731274331274211274110127391132951)
 (.leaf 121991276921276810012763100001331610133141127551127541331221275310))
 (.node 1 (.leaf 12785112782133412127811001278013338133373127791277720012776112775133331333213331401220212773212772112771112770133272)
 (.leaf 12797112796100127951127921335121279111279010000127871127861))))))
 (.node 16 (.node 8 (.node 4 (.node 2 (.node 1 (.leaf 1281513374200001224112812212811112810112239128072122371223612806133654001280513362212804133612122331280321280212800133593)
 (.leaf 128311339013389301282911282811338610001282511282410128221282020012819112818133752))
 (.node 1 (.leaf 1284711284613405200013401113400100128401283813397312837113394112835100128341)
 (.leaf 1286411286313421212862128601341831285911285810012287128572122851285621285511285410128521128511128501284813408134074)))
 (.node 2 (.node 1 (.leaf 12310128792001287811230512877134351343441287613433212875112303128741343131287313430212301128722128711123001229912870301286810128661)
 (.leaf 12326128952000012892134502128911344913448312890112889112888112316128872128861344421288513441212884112311128832128801))
 (.node 1 (.leaf 1291010129081001233711233612906212335123342129021001290111290012898200)
 (.leaf 1235812929129273129261123561235520123541123531123511292120012349129201291831291711291610129141129131129121))))
 (.node 4 (.node 2 (.node 1 (.leaf 12374112373129442001294113498134973129401349621293913495212936112935112934112933112362129322129311000)
 (.leaf 12961112960112959112387123861295831238512955201295310001295111295010012377123751294730))
 (.node 1 (.leaf 129771353521240512976212975101297313531212972129701353031296911239912968135273129671129661000135221129631129621)
 (.leaf 129911354821299011298713546135453001298413543212983112982135411354030001298010129781)))
 (.node 2 (.node 1 (.leaf 130091300721300613566135653000135611013002113001129991355830001299713555212996112995129931355313552135515129921)
 (.leaf 13020100001244613017130153124451301413572312444130132001301211301113568212439130102))
 (.node 1 (.leaf 1303713596135953130361001303311303210013031135882130301130291358613585301302510)
 (.leaf 130571362513624312494130562130551362321305410012489130512012487130492124861304820000135991130401)))))
 (.node 8 (.node 4 (.node 2 (.node 1 (.leaf 130721364020000130651363521306411363411250211306310013058100)
 (.leaf 1308710013084113083113082101365013649213081113080101364610000))
 (.node 1 (.leaf 125431310521310411310311254012538131021367041310111310011309911309811253411309611309513664136633130941001309111309013088136583)
 (.leaf 131211369013689313687113117113116136852131151131141013112136822136801000000131061)))
 (.node 2 (.node 1 (.leaf 12575112574100131311125691256813130300013696136952013126113694113124112560131232131221)
 (.leaf 1314910131471131461131451001314411314311314210131401012576131382))
 (.node 1 (.leaf 13167137381373731316613736137353001373311316210013159137301372831315811315711315611315511372411259110)
 (.leaf 12622131831375331262113182212619131812126181318020001317611317511317411317313743212610131722131711131701373920131681))))
 (.node 4 (.node 2 (.node 1 (.leaf 1263912638201263613196200126341319520000126261001318511262412623131843)
 (.leaf 132151000132131126541126531000000000))
 (.node 1 (.leaf 13229100013223100013221113220101266012659132163)
 (.leaf 1324510132431000013240137931379230137911137901000)))
 (.node 2 (.node 1 (.leaf 12705112704112703112702100132561126991126971126961000)
 (.leaf 127241127221328021327711272010127181132731013271100132701132691000))
 (.node 1 (.leaf 1329410013291138362138351383420013285112729127282012726100)
 (.leaf 13313133111385713856413310112752133092013307101330510000000132971132961)))))))
 (.node 32 (.node 16 (.node 8 (.node 4 (.node 2 (.node 1 (.leaf 133291133281387313872313325113324100133231133221386713866138654133211000013861113315113859138582)
 (.leaf 13889112784133432138861013340138841388331333910013881138802133351387921333413877201387610133301))
 (.node 1 (.leaf 133601335821335713903212799127981335613902139015013354100133531389713896313352133501389530001278912788133481334640133441)
 (.leaf 1337713921213376139202133731133721391821281313371213370100133691336721336613911212809128082133641001390710)))
 (.node 2 (.node 1 (.leaf 13391139371393630013388113387113932139312013930112826133851392931338411338311338213927212823133811392631338011337913924139233133781)
 (.leaf 1340913953200134061340421394913948213402100133991394521394413943201339813396139421394141339513940201339313939213392139382))
 (.node 1 (.leaf 1342511286513424201342210134201134191341713963313416100134151396021341411341311341213957139563128531341113955313410139542)
 (.leaf 13986112882128811344013984413439113438139822134371134361013432100134291001342813972213427112867134262))))
 (.node 4 (.node 2 (.node 1 (.leaf 1289913457212897128961345631345511345413999139983128941345321289313452213451100139931134471134461134451344313989300134421)
 (.leaf 1291113470213469112909134662129071000129051290413463313460100134591134581))
 (.node 1 (.leaf 12930134872134861129281348514032313484140312134831403014029312925129241348214028412923134812134801402621292213479213478113477113476112919101291510)
 (.leaf 1294611294511404711294313502140463135011129421350021349914044140433014040113494113493113492113491140372134901403614035313489113488140342)))
 (.node 2 (.node 1 (.leaf 13521113520113519113518113515112957129562000129541012952113509112949112948135072135061)
 (.leaf 12979113536135341407931353310013532113529101407414072213528113525113524113523100140671))
 (.node 1 (.leaf 14098140972135501135491409420135471001354410000135391000)
 (.leaf 13569135672001356414109213563113562114107141062001356014104213559101355714102213556135541410114100400)))))
 (.node 8 (.node 4 (.node 2 (.node 1 (.leaf 1358314128213024101358211302213581213021135801357831357711301913576213018135752130161357420013571113570100)
 (.leaf 13598141442135971414321414214141201359414140213593141392135921413821359114136213590100001358711358414131141303))
 (.node 1 (.leaf 1361710000141511000000000136001)
 (.leaf 136331136321417221306213061136313136301417020136281136271416520141641141631013053130521362214162141615136211416020130501361920)))
 (.node 2 (.node 1 (.leaf 13643101364110136391001363610141731)
 (.leaf 136651001309313662213661113660113659136571419931365614197213086136552136541014194141932136531136521419121365110))
 (.node 1 (.leaf 136791136781001310813107136773136761136751136741136731136721136711001366810130971)
 (.leaf 136971000136931136921423121369111368810001368414224213683101368110))))
 (.node 4 (.node 2 (.node 1 (.leaf 137111131411371021313911370811370713705213137113136131351370331370211313313701213132137002013698100)
 (.leaf 137291372714269142684137261137251426620137231013154131532013151137212000000137141))
 (.node 1 (.leaf 137421428220137401014279100013165137341427614275414274142732137321001373110)
 (.leaf 1375510013754113751100137481001374710)))
 (.node 2 (.node 1 (.leaf 13222100143121000000000000)
 (.leaf 1378911378811323313787213786113232113231132301378431378310013778100))
 (.node 1 (.leaf 132571000001379711324411324211379411324110)
 (.leaf 1327811382211327613821213820113275132741381931381811381711327213816213815100138141138131138121434621434410))))))
 (.node 16 (.node 8 (.node 4 (.node 2 (.node 1 (.leaf 1383910013838113837101436710143651013284113283113282113281113825113279138242)
 (.leaf 138551138541013852101330611385111330413850213303138491384731330213301201330013299138463013298100))
 (.node 1 (.leaf 13326138712138701440321386911386810144001439920138641000014393113860100)
 (.leaf 133421388821388710138851441620144141133361388220001387810001387414406144053)))
 (.node 2 (.node 1 (.leaf 13900113355138991443330144301442921389810138941133491144251013347138922133451389120)
 (.leaf 1391911445111391711391614449213915113914113368139132139121013910144442139091133631390820000))
 (.node 1 (.leaf 13928100139251445620144551139221)
 (.leaf 13951100139501001394711394614478214477144761447530000000))))
 (.node 4 (.node 2 (.node 1 (.leaf 139691134231396820139661449721396514495213964139622139611013959144922144901013958144892014488114487144862139521)
 (.leaf 139831013981113980145142139791451221397814510213977113976100139751450721397411397310139711139701))
 (.node 1 (.leaf 14001145322140001139971139961452920013995145262139941399220001399011452114520213988113987139851451830)
 (.leaf 1401514548145473014013145462134681346714545314011113465140101454331400911346414008213462140071454031346114006201453811400511400414535145343140031140021)))
 (.node 2 (.node 1 (.leaf 140331456420001456114560201402714025214024114023145571455531402211402111402011347513474213473140181455031401711347213471140163)
 (.leaf 1350414049145803135031404821457914578201404514577145763140421140411145731457221403911403811457011456910145671456620145651))
 (.node 1 (.leaf 140651013517135161406331406211406111406011351413513213512140582140571458914588313511140561458631351014055214054113508140531458514584414052114051113505140502)
 (.leaf 14611114078146101460914608414077114076146072140751013526140731407114605146041460361407011406914602146013140681000140661)))))
 (.node 8 (.node 4 (.node 2 (.node 1 (.leaf 140951014625114092114091100140881135421001408411353814083213537100)
 (.leaf 1411010000141051146371463620014103114634146332140991001409614630146293))
 (.node 1 (.leaf 14129141271466130014126113579141252000014120141182135731411720141151000)
 (.leaf 1413710141351141341466621358914133214132114664114662100)))
 (.node 2 (.node 1 (.leaf 1362010136181415814156313616141551469130000014685114150114149101414510)
 (.leaf 14171147061470531470411362914169147033141681136261416720000146961))
 (.node 1 (.leaf 1472511419011364814189213647114185101364513644213642141841471914718147175141831141821141811471521418011417911363813637141763)
 (.leaf 13669142092142081136671366614207314206114205114204147391473831420311420211420111420011473414733214198147322014729114195114192147272))))
 (.node 4 (.node 2 (.node 1 (.leaf 1422314759200014219114218100142171142161014214114213114212114211114210147452)
 (.leaf 142391013699147732142381142371142361142351477021423411423311423214230147663142291142281142271136861422621422510))
 (.node 1 (.leaf 137161425721425611371511371311425311371211425111370914250200142451137061370414244314243101424111424014776147753)
 (.leaf 1480710014270114267148032000142651014263113722114261113720142602137191371814259313717142582)))
 (.node 2 (.node 1 (.leaf 1374614285213745137441428430014283142812137411428014816301427810000148091142721)
 (.leaf 1375214292214291101375013749142893142881))
 (.node 1 (.leaf 1432110013777100000001377011376910137681376720)
 (.leaf 14333113796143321487131379514331200014329100001432410137851))))))))
 (.node 64 (.node 32 (.node 16 (.node 8 (.node 4 (.node 2 (.node 1 (.leaf 143511143501000014347101434511488711434311434210000)
 (.leaf 143681149091143661014364100138261143581138231014355148992143541143531143521))
 (.node 1 (.leaf 14384149272143831138481438221438110014378113845138441384314377401384214375213841138401437414372414371114370100)
 (.leaf 144011494320014396101386313862201439410143901000143861143851138531)))
 (.node 2 (.node 1 (.leaf 144171441514959301441314957214412149562001441110149511144081138751440714949301494611440414402200)
 (.leaf 144311000000013893114424113890144231442130014420100))
 (.node 1 (.leaf 144471001444614989214445144431498730144411144401001390613905144393144381144371139041443614979314435149781497731443414432149763)
 (.leaf 1445810000144531499614995314452144502014448149922))))
 (.node 4 (.node 2 (.node 1 (.leaf 1448011447910000000000139351139341393320)
 (.leaf 14496144942144931503821503610000000014485114484100))
 (.node 1 (.leaf 1451114509214508100014506100014502114501113967145002150411144981)
 (.leaf 1452511399115067150663145231145221001451711451610000)))
 (.node 2 (.node 1 (.leaf 1401211454215086214541101453910145371145361507920000145331453115075300145281)
 (.leaf 151031145591145581014556145541509930014553145511509431401910150921145491140141150891145441))
 (.node 1 (.leaf 14575114574151182000014571100000151071510620145631145621)
 (.leaf 14593114592151351513415133414059145912145901145871513115130300000145831145821145811512321512211512010)))))
 (.node 8 (.node 4 (.node 2 (.node 1 (.leaf 1515111460615150215149151482000000146001014598114597114064145962145951145941)
 (.leaf 1462211409014621151653140891462021408711408610140851461821461711461411408214613214081140801461215156400151531151521))
 (.node 1 (.leaf 14108146392000001463511463215176151753001463111517315172201462815171151703146271140931462614624151684)
 (.leaf 146571141241412314122314655146532141211465221411914651200001411614646214114114644114113141121464331411110146401)))
 (.node 2 (.node 1 (.leaf 146721146711466921466811466710146651014663115205100014660152022146591146581)
 (.leaf 1415414689214153141522146871522721468610146841146831001467810014677101467310))
 (.node 1 (.leaf 15244100141661470120146991000146951141591415714694146924000146901)
 (.leaf 152601000014716101471411417814177147133014175114174147082001524610))))
 (.node 4 (.node 2 (.node 1 (.leaf 14737152762147361147351152731147311527215271314196147302014728101472615266200014724114188141871418614723147215147201)
 (.leaf 1475311475211421511475011474911474815288152873147471147461014744114743114742152821528131474115280214740100))
 (.node 1 (.leaf 147691147681147671476515306153054147641147631147621147611000147571142221422114756314220147552000)
 (.leaf 1424911478211424814247142461478141478010001424210001477410147721147711153091)))
 (.node 2 (.node 1 (.leaf 1479911426410147981142621479721479611479511479411479311479211479111425514254147903001425210)
 (.leaf 148151148141148131148121142771481121481015351215350114808115348114271148061534715346414805114804115344114802114801153422148001))
 (.node 1 (.leaf 1429014825214824114823114822114287142862148201014818100)
 (.leaf 15378101537615375200000000))))))
 (.node 16 (.node 8 (.node 4 (.node 2 (.node 1 (.leaf 1432614325201432311432214861214860100000000143111143101)
 (.leaf 143301014328114327148662))
 (.node 1 (.leaf 14895114894114349100143481148911488921488810014885100148841148831148821)
 (.leaf 14913114369100001490710014902114901114357143562001489715427214896154262)))
 (.node 2 (.node 1 (.leaf 1492614924201438014922214379101491911437610014373114916100)
 (.leaf 14945114944149422149411546921494015468214398143971493930149371143951014392143912014389114388149312143871493020149281))
 (.node 1 (.leaf 149581001495515481154803149541144101440914953154794149521014950149481547715476414947100154721)
 (.leaf 149751001497411497314971214428101442714426149701496841496710014422114965154912149641149631548921441914418149623))))
 (.node 4 (.node 2 (.node 1 (.leaf 1499115519200015516114988149861551415513414985114442149841551131498310014982114981100155041)
 (.leaf 1446511446414463201446211446114460150051500341445910015001114457115526114454149981552531499711499411499310))
 (.node 1 (.leaf 1448110001502111502015547215019155462144741447315018301447215014214471101447014469214468150102144671446620)
 (.leaf 150391000150371503515563315034114491150332000150311150301001448315027150253144821)))
 (.node 2 (.node 1 (.leaf 150531150521505020015049155761557531450514504150481504641450315045200150441150431556921449915042150403)
 (.leaf 1507111452715070215069114524150682150651000014519115061115060114515150572145131))
 (.node 1 (.leaf 1508715085156133150841150831150821561020015081156072150801507821507711507610150741145301560220)
 (.leaf 151021151011151001509815626156254001509715095214552115621101509315091156193150901015088156162)))))
 (.node 8 (.node 4 (.node 2 (.node 1 (.leaf 1511610151141001456815111156383151101151091563621510810000)
 (.leaf 151371151361566120151321156581015129156562151281001512711512611512515652215124156502151211564820))
 (.node 1 (.leaf 15147100151461015144115143114599151422151411151401151391151381)
 (.leaf 15169151672146231015166151641569315692415163156902146191516220015159156872146161461515158315157156852015155115154100)))
 (.node 2 (.node 1 (.leaf 15183101463811518010000151771001517411570010156981569720)
 (.leaf 15201115200115199114656151982146541519721519611519511519411572115720201518911464510151881151871146421464115186151844))
 (.node 1 (.leaf 1467015212215211101520911520810152061000000)
 (.leaf 14693115232115231115230115229114688152282015226115225115224101522210000))))
 (.node 4 (.node 2 (.node 1 (.leaf 14707152472015245100015243114702152422147001524115763315240115239157611576031469814697152383152371152361575821523511523415756157553)
 (.leaf 1526211472215261201525911525810015257115256115255101471215253152513147111471015250314709152492152481))
 (.node 1 (.leaf 15279158031580230015278115277101579611527415795201527015793215269100000)
 (.leaf 152951001475410014751152912152901152891152861015808115285115284158051580431528310)))
 (.node 2 (.node 1 (.leaf 153131153121583415833315311158312153101530820015307115304115303101530115823214760153001582231529911475811529710)
 (.leaf 1478914788153293153281584921478714786153271584841532611478514784147831532515323515322101532010014779114778147771531815316415315115314100))
 (.node 1 (.leaf 15343153412158631158621153401153391586021533811533711533611533515857215334115333100153301)
 (.leaf 1481915359215358114817115356115355115354100015352158732153491587120158701586920153451586820)))))))
 (.node 32 (.node 16 (.node 8 (.node 4 (.node 2 (.node 1 (.leaf 153771001537411483815373215372100000153641153631015361114821153602)
 (.leaf 1486314862153933153921153911000000000001537910))
 (.node 1 (.leaf 154091000001540111540011487014869201486815399214867101486511486410)
 (.leaf 15423114893154222014892101489015418201541611488615415215414115413100154121154111154101)))
 (.node 2 (.node 1 (.leaf 1544011491214911214910154362014908115435115434115431101490015429215428114898101542510)
 (.leaf 14929100149251154531014923115450114921149201544931544810149181149171544520149151149141))
 (.node 1 (.leaf 15473101547111547015983159821598140001493815466215465114936154642149351493421493315460214932154592154581154571154561)
 (.leaf 14961149601548830154861154851154841599621548315995215482100001547515989215474100))))
 (.node 4 (.node 2 (.node 1 (.leaf 1550510160151155021149721550116014315500115499160122154981154971149691549621549516007214966154942154931600521549215490200)
 (.leaf 155201551821499010001551510000015509115508114980155072155061))
 (.node 1 (.leaf 150091500815007301500615532215004100015002155272150001499921604011552416039215523115522100)
 (.leaf 15553101502411502315022155503155491000155451150171501615544315015155432155421155411150131501215011300)))
 (.node 2 (.node 1 (.leaf 1556710155651001556415562215561100155601150321555921555810150291150281150261)
 (.leaf 15585115056155841609716096415055155832150541558221558116094215580115051155792155781155771608920015047155741608731557316085215572160832155711155701))
 (.node 1 (.leaf 150731507215599301611211559811559716110215596115595115594116105115064155922155911150631559016103315062155892155881150591558721505815586160993)
 (.leaf 1561715615161293156141015612100156111560916124161234156081612220156061156051611921560411560310156011156001)))))
 (.node 8 (.node 4 (.node 2 (.node 1 (.leaf 1563311510515104156321563040015629115628161402156271156241150961000015618100)
 (.leaf 156471151191001511715645215644156422151151564116154315640115113151122000000156341))
 (.node 1 (.leaf 1566511566416177215663115662156601617431565910156571161691156551156541016166115653116165161642156511564916163316162161612)
 (.leaf 15673101514510015670115669101566710)))
 (.node 2 (.node 1 (.leaf 15695162092001569411569116205201568916203215688115161151601620130015684161991619730156821156811156801)
 (.leaf 1571311518515712201518211518110151791151781157031157021001570111621316212215699162112156961))
 (.node 1 (.leaf 157281157271157261157251157241622821572316227215722100000000)
 (.leaf 152231574520000015210115736115207157352157341000152041520320157301))))
 (.node 4 (.node 2 (.node 1 (.leaf 1575916261162593000157571625620152331157541625420157521001574911574810157461)
 (.leaf 157771152541577620152521015770115769115768100157671157661157651157641015762162622))
 (.node 1 (.leaf 1579216292162913157911152681526715790162894157891157881152651526415263157874157861578420015783100000)
 (.leaf 158071016307163062158061163041000000152751579816297315797115794100)))
 (.node 2 (.node 1 (.leaf 1530210158211632121529810015296101529415817158153152931529220000158111158101)
 (.leaf 158411634021584011531715839215838163372158371158361633516334315835100158321583021582916330215828115827163282158261158251158241))
 (.node 1 (.leaf 15856115332115331115853115852101585016350216348116347115847115324158461634531532115845163443158441634321584316342215319158422)
 (.leaf 163721158721001586711586616367215865115864116364101586110000158581))))))
 (.node 16 (.node 8 (.node 4 (.node 2 (.node 1 (.leaf 1588611588511536211588311588211588111588011535711587811587711587611587511535310158741)
 (.leaf 1640310158991001538011589711589611589511589411589310158911158901))
 (.node 1 (.leaf 15916100153981591521539715914215396115395115394100000)
 (.leaf 154211015420154192015417159312015929100159281159271159261643221592511592411592310)))
 (.node 2 (.node 1 (.leaf 1543815953164603154371595221595116458215950115949115948115945115944115430159432159421001593911542410159361)
 (.leaf 159671154551545421545215451215964100159611154471596021544615959201544411595611544315442154411595540015439159542))
 (.node 1 (.leaf 159841015467159801648630001597811597716482164813154631546215461159761648051597511597415972200015970159682)
 (.leaf 160011154871600021599911599816501215997100159941159931154781599221599111599015988164953164931159861159851649120))))
 (.node 4 (.node 2 (.node 1 (.leaf 155031160161001601316011216010100160091160081016006160042160031650916508300160021)
 (.leaf 1551716031200160261155121160241155101602320016022101602011601910))
 (.node 1 (.leaf 155361604921553515534155331604816552516047165511655031604611604511553116044165493155301552916043315528160421654731604111603816544216037116036100160331155211)
 (.leaf 15552155511606516569416064116063116062115548160612160601160591160581165611160561656021605516558216054115540155391605331553816052215537160511655631605016555165543)))
 (.node 2 (.node 1 (.leaf 1556815566160793160781000001607411607311607211607111555716070215556160692155551606821555416067165723160661)
 (.leaf 16095166002000160931016091165951659431609016088216593100160861016084160821658830160801))
 (.node 1 (.leaf 161111610920016108115593161072161061610420001610211610111610010160981660316602166014)
 (.leaf 16127116126100161251166281161211166261016120161181662431611711611611611511611411611310)))))
 (.node 8 (.node 4 (.node 2 (.node 1 (.leaf 16143101614110001613911562316138161363015622161342161331156201613216637316131100161281)
 (.leaf 156461615921615811615711564316156216155166602016153115639100156371156351614821614710015631161442))
 (.node 1 (.leaf 161761161751617316679316172116171116170101616816673200001666910016160166652)
 (.leaf 156791567821567711567615675215674161872001567215671161861618440016183116182115668161812156661161791161781)))
 (.node 2 (.node 1 (.leaf 1620716712167113162061670920162041620221670711620011568611619810156831016194100)
 (.leaf 162251157141016220100162191016215100000016210162082))
 (.node 1 (.leaf 1573311623911573215731201572916236162343162331167351016232100016226100)
 (.leaf 1625510001575316253167583162521157511575016251162494001574716248216247116246116245100162401))))
 (.node 4 (.node 2 (.node 1 (.leaf 1577111626910001626711626611626510162631001625811625710)
 (.leaf 1628711578516286201628410015780101627710000167791))
 (.node 1 (.leaf 163051630321630211680711680611580115800163013157991630016298301629610162941001629310016290162882)
 (.leaf 15820158192158181631720158161158141631421581316313215812163122001631111580916308201681310168111)))
 (.node 2 (.node 1 (.leaf 1684010163331163321163311683816837300016327168332000163231000)
 (.leaf 1635216857215851163512168551163491163461685320168491016847100163411633921633816844200))
 (.node 1 (.leaf 16366168722163651016363116362116361168662001636011585916359216358116357116356115855115854163542)
 (.leaf 163831163821163811163801158791637920163771163761163751688021637411637316879201637111637011687510)))))))))))
 (.node 512 (.node 256 (.node 128 (.node 64 (.node 32 (.node 16 (.node 8 (.node 4 (.node 2 (.node 1 (.leaf 1639911589816398201639611639510015892116393101588916391216390100163851158841)
 (.leaf 0))
 (.node 1 (.leaf 16433101643111643011642910000000016418100)
 (.leaf 164471159411594016446316445116444115938115937115935115934116439115933159322015930116435116434100)))
 (.node 2 (.node 1 (.leaf 16459100016455116945116451116450100)
 (.leaf 164791159731647821597116477216476115969115966159651647216967416471115963164702159621000015958159572))
 (.node 1 (.leaf 164961169911159871649416492169904000001648816985216487169842015979164852000)
 (.leaf 1651211651117009170083165101017006116507101650517003216504116503116502165001700031649911649811699610))))
 (.node 4 (.node 2 (.node 1 (.leaf 160211652721652617024216525101601816017200000001651510)
 (.leaf 165431170411001603511603411603216539201653716535216030160292016028160271653230016025165292165281))
 (.node 1 (.leaf 165591705820017056116557170542016553100170491170471017046170452165481654621654510)
 (.leaf 1657316571200001656811656710170631706221656417060216057165632165621)))
 (.node 2 (.node 1 (.leaf 165911165901165891658717087316081165862165851016583116582116077165811708031607616580216075165792000)
 (.leaf 166071016605171032166041710120000165991165981709621609216597216596117093170922165921))
 (.node 1 (.leaf 1662516623171223016621116620101661810016617101661511661411661310166111660920)
 (.leaf 166391166381713621713511663611613016635216634171322016632100001662911712511662710)))))
 (.node 8 (.node 4 (.node 2 (.node 1 (.leaf 16150166552161491665417152316653116652116651116146161451665031714810016142166481664631664510001613716643216135166402)
 (.leaf 16671117169100000166641166631166621166611171581166591166581161521665721615116656171553))
 (.node 1 (.leaf 166871000161801668520166831166821718021668111668016678171773166771166761166751166741016167166722)
 (.leaf 161961161951670120161931669721619211619111619011618916188166933000161851668920)))
 (.node 2 (.node 1 (.leaf 16214100001671411671310000001670816706200)
 (.leaf 162311162301673421622916733216732167302001672911672817223217221100000))
 (.node 1 (.leaf 167521167511000000000162381623721674011623510)
 (.leaf 1626411676810162601676616764300167611001676011675910167571162501675616754300))))
 (.node 4 (.node 2 (.node 1 (.leaf 1678210001678010167781001677310162681167721167711676920)
 (.leaf 16295100000000016285100000))
 (.node 1 (.leaf 16310168162163091681517291316814101681017287216809172852001680817283200162991680516803316802100)
 (.leaf 168311730821632616325216324168292168281163221001632016319168263016318116821116316168202163151681917295316818100)))
 (.node 2 (.node 1 (.leaf 17324173232168461173211016845168432168421163361684120001683910016836116329168352168341683217310173094)
 (.leaf 1686510001635516861173363168601163531685921685810168561733217331317330116854168522168511017327116850168482))
 (.node 1 (.leaf 1688117356216878116877100168761687417351316873173492163691636820016869100000)
 (.leaf 16394173722168961168951163921689417370316893116892116384168892168881168871736321688611688511688411637816883200168821))))))
 (.node 16 (.node 8 (.node 4 (.node 2 (.node 1 (.leaf 1690611640416905216904101640216401164001690240169001163971689921689811689710)
 (.leaf 16927116926100169251169241169231000000000))
 (.node 1 (.leaf 16943116942116449164482169401000164431001644216441216440169342016438164372164361169281)
 (.leaf 1646211646110000164571164561000001694610169441)))
 (.node 2 (.node 1 (.leaf 169761169751744421697411647516474169733169721744117440316971116970169681743931647310000164651164641164631)
 (.leaf 174581164901648916989316988100001698117451216484164831698017450416979101697710))
 (.node 1 (.leaf 1700511747417473201650617004201700211700116999217468174672001699511649716994216993116992174612)
 (.leaf 17023116524165231702217490416522170212170181748721652116520165191701741651817016174863170151165171701421651617013174823170121165141651320170111170101))))
 (.node 4 (.node 2 (.node 1 (.leaf 16542170392165411165401703721703611653817035216536170342001653416533200165311653017030301702611702510)
 (.leaf 17526175252175241170551705321752210170521752121705111705017048175193001751511704411704317513217042100))
 (.node 1 (.leaf 165741707317071300170701165701017067117066117065175341753331656616565170641753241706111753010175291170591705720)
 (.leaf 170891170881708617557317085117084175542170831165841708221708117550200017079117078117077116578170762165771707521657616575170743)))
 (.node 2 (.node 1 (.leaf 166061710521710417102175713017100117099175692170981170971017095100017091175612000)
 (.leaf 17119117118116619171172171161017585117115116616171142171131171121758117580316612171112171101166101710917578317108117107116608171062))
 (.node 1 (.leaf 1713411713317603201663317131217130117129116631171282166301712720017126175942017124175922171231712121662217120175893)
 (.leaf 1715110017150176182166491714917147176174171461166471714521714417613217143100166441714021664216641217138176082171371176051)))))
 (.node 8 (.node 4 (.node 2 (.node 1 (.leaf 166701716721716611666816667176343016666100000171571171561017154117153117622176212)
 (.leaf 1668617185201668411718211718111764911717911717817176217175176452171741176431000017168176372))
 (.node 1 (.leaf 16702171992171981016700166992166981016696116695101669416692171903016691116690117188116688171872171861)
 (.leaf 172151167171721421671611671517212200172111720920016710101720611720311670516704217201116703172002)))
 (.node 2 (.node 1 (.leaf 167391000000167311000172201176881017687116719167182)
 (.leaf 1724711724611724510016753100000000))
 (.node 1 (.leaf 1677017259217258117257116767117255116765172541725231725111676316762200)
 (.leaf 1680417279200016801168002167991016798167972167961000167811000))))
 (.node 4 (.node 2 (.node 1 (.leaf 1729411681717293177353172921729017734300168121728917730317288172861772930000017282177242)
 (.leaf 1731311731211731110173071775017749316830173062173051774820016827116825173011774431730017742216824172992168231682217298317297117296177392))
 (.node 1 (.leaf 1732617768200173251776721776611776511732217763201732011731911731811731711731617758217315117314177562)
 (.leaf 1686816867173443000168641168631686217339317338117337100173341777521733310173291173281)))
 (.node 2 (.node 1 (.leaf 17359100173581173571735521735417796217353117352177952017350177922000016871168701734530)
 (.leaf 1737310173711178131173691173681173651173641001736110))
 (.node 1 (.leaf 1738510017382117381117380116903173792173781782221690117377217376178202)
 (.leaf 169331693220169311693021692911740211740111740010001739810000)))))))
 (.node 32 (.node 16 (.node 8 (.node 4 (.node 2 (.node 1 (.leaf 17421100001741611694110169391001693816937169363174091169351)
 (.leaf 178841001696917438178823174371001743411787811787410178731001695710))
 (.node 1 (.leaf 16987169861745431745310169831698220017448116978117446100174451017443178872174421)
 (.leaf 1747217470179153000169981699717466317912179112000174631174621746021745917906217904100)))
 (.node 2 (.node 1 (.leaf 170201701920174851174841792921748310174811174801792620017479117007174781747630000)
 (.leaf 170331703217503175014170311750021749917945217029174982017028170271749631749511749410001749210174881))
 (.node 1 (.leaf 175201017518179631796231751717961217516175142179591795821751217957217511117510117040175092175081795421703817507217506117505179512175041)
 (.leaf 1706811753611753517980201753110000175281175271000175231796720))))
 (.node 4 (.node 2 (.node 1 (.leaf 1755110001754910000175441175431017072117540117539117069175382)
 (.leaf 175651170941756220001709011755911755817556180033175551180001175531175521))
 (.node 1 (.leaf 175841175831802821758210017579118023100001757311757010175681)
 (.leaf 17599117598180432175971804220175951000175931759118037301803411758810017587180322175861)))
 (.node 2 (.node 1 (.leaf 17615180612176141180591805821761211761111714217610217141176092171391001760711760617604180513180491804821760211760111760018046180453)
 (.leaf 1716217631217161176301807631716017629217159176281807431762711762611762518070200176241176231176201806620180631176191176161))
 (.node 1 (.leaf 176481176471176461764418091180894017173176422176411808621717217171217170100000171651716417633317163176322)
 (.leaf 1719517194201719317192217191117659117189176582176571001765410171841171831765321765211765110)))))
 (.node 8 (.node 4 (.node 2 (.node 1 (.leaf 176811172101768021767911720811720717677201720517204217672117202176712176701176691176681176671176661017197171962)
 (.leaf 1722210176891000001768311768211721310))
 (.node 1 (.leaf 1815510177111172561771021770911770811725311770617704201725017249201724811770110176991176981)
 (.leaf 1772811728417725200017281172801772331772211727810000000)))
 (.node 2 (.node 1 (.leaf 18182101774317741181801817940017740177381817631773718175181743001773610017733117732100)
 (.leaf 17754181912177531819018189317752117751118186117747181851818431730417746217745117303173022))
 (.node 1 (.leaf 17776177741821231777318211217772117771182082177701177691000000177641776221776118200181991819840)
 (.leaf 1779111734817347177903177891822521734617788217787182232173431778621734217785217341177841822031778311734017782182183177811177801821621733517779217778182152))))
 (.node 4 (.node 2 (.node 1 (.leaf 17807182442178061178051173621780420017360178012000177971001779411779310)
 (.leaf 178231017821101781911781811737517817217374101781618257217815117814101781211781110))
 (.node 1 (.leaf 173991017839100000178311001783011782910178251178241)
 (.leaf 1741517855201741417413217412178542174111174101017408117849117407101740411740317843201784110)))
 (.node 2 (.node 1 (.leaf 1787210178701000000174201174191786021741817859217417178582178571178561)
 (.leaf 17888101788611788517883183303001788010183261178791183231832220000))
 (.node 1 (.leaf 1790311790211745717456179013174551790018348317899100174521789821789717895217894117449178932174471178911178901833621788910)
 (.leaf 1747511791810179161174711017469179132000174651174641791021790917907218352100))))))
 (.node 16 (.node 8 (.node 4 (.node 2 (.node 1 (.leaf 17491179362174891793521793417932217931117930100017928183732179271837221837111792511792418370217477179232179201)
 (.leaf 179501179471175021794620179441179431174971794221794111794011793910017493179382))
 (.node 1 (.leaf 17969117968179662001796518411217964184092000018405184042179561001795517953184003179521)
 (.leaf 17984184292179831842818427317537179822179811179781179771842321797611797511797418421217973184202179721018417117971184162179701)))
 (.node 2 (.node 1 (.leaf 180011799921799810000017548179942017547175461754530179901798820017542175412179861)
 (.leaf 1757218017218014100180131175671801221756611756417563180103180091180061018452117560180051845031800418002200))
 (.node 1 (.leaf 18031118030184752180291000180251180241017577175761757531757418021218020100)
 (.leaf 184941018047184922180441849121848910175961804121804010001803818036184833175901803520180331848020))))
 (.node 4 (.node 2 (.node 1 (.leaf 1851011806418062201806011850718506218505185042180571180561180551018053118052184982000180501)
 (.leaf 1763518079218078118077100000180711851821851711806911806811806711851211806510))
 (.node 1 (.leaf 176501809621809511809418539218093118092180901853730180881001764018085218084117639180831853118530185295176381017636180802)
 (.leaf 176651176641766320176621176611766021810410181021854821810111765611765511810011809910)))
 (.node 2 (.node 1 (.leaf 176731000000)
 (.leaf 1770010000001813511813410018133118132100))
 (.node 1 (.leaf 18154185732181531181521181511177071815020177051177031770220)
 (.leaf 181721181711859121817011773118169218168100177261000)))))
 (.node 8 (.node 4 (.node 2 (.node 1 (.leaf 1861118610218188186092181871186071001818318604200018181186012181781181771185971)
 (.leaf 1820711820611820518625200018201118620100177601819718618317759181962181951181941177571819318614317755181922))
 (.node 1 (.leaf 186441182241822218643186424001822111864018639218219186382186371182171001777718214186341863318632518213118210186311863031820910)
 (.leaf 1780218239218238118237186582178001823621779917798182353182341182331865321823210182301182291182281864820182261186461864520)))
 (.node 2 (.node 1 (.leaf 18676118256118255186742182541182531182521000018666118664118243118242118241117803182402)
 (.leaf 1869511869410186891186881182661868718686318265186852182641182631018261118260100182591182581))
 (.node 1 (.leaf 1828710001870810000018277118276118275186972182741)
 (.leaf 1830318726187253187241018302187232178531785218301187224178511785018300182981872150000178441017842101784010))))
 (.node 4 (.node 2 (.node 1 (.leaf 183181018316118315100000183071183061018304187272)
 (.leaf 183341875518754318333118332187522183291187501017881183282183271187461183251874521832411832111832018743187423))
 (.node 1 (.leaf 17905183511834930000183461018342117896118340118339117892183382183371875920)
 (.leaf 179221792118368187891878851836711791918366183641878640179171836220017914183612183601183591018355117908100)))
 (.node 2 (.node 1 (.leaf 18384117937183832183821183811179331838018378318377118376187982000183741879520000)
 (.leaf 18399118398100183971179491839421794818393200183901183891183881183871183861183851880720))
 (.node 1 (.leaf 18837188361883531841511841418834218413118412184102188321883120188301184081184071882821796018406218403188242184021184011882220)
 (.leaf 179871843321843218852188513179851843121843018849201842611797918425188463184241018422118843101841918840218418100))))))))
 (.node 64 (.node 32 (.node 16 (.node 8 (.node 4 (.node 2 (.node 1 (.leaf 184481184471184461886721844511844418865188643179971799618443317995184422184411886121844018860217993179921843918859417991184382001798910)
 (.leaf 180191801818465184634001801618015184623184611888121846018880218459184572180111845620001800818007218453118872188712184511844920))
 (.node 1 (.leaf 1890111847810001847618896218027118474188952180261847318893318472118471118470118022184692018467188872184661)
 (.leaf 18496118495101849318913218490189122189111184881184871184861890921848518907218039101848218904200)))
 (.node 2 (.node 1 (.leaf 1893210185111850918931318930101850811892818927189263018503118502189242185011892221850011805418499218921189201891931849710)
 (.leaf 180811852718950318526189481894731852511852418946218523189451894431852211807518521218520189422185191180731807220185161185151185141893621851310))
 (.node 1 (.leaf 189661180981809718544318543118542101854010185381853621853511853418957218087185332185321895420189511018082185282)
 (.leaf 185591185581185571189731000018103101854718968201854510))))
 (.node 4 (.node 2 (.node 1 (.leaf 185721185711898321857010000000185601)
 (.leaf 1859010018589118588118167181662000000000))
 (.node 1 (.leaf 1860619016218605100018603190122186021860020018599100190041185951181731859418592190034)
 (.leaf 1820418623190333182031820218622318621119029118619101902710018616118615119022118613118612190202018608190182)))
 (.node 2 (.node 1 (.leaf 19048100018636118635101904219041219040118629118628118627118626190372190341186241)
 (.leaf 18654100182311000182271864918647190571905650000190531905219051318641190502190491))
 (.node 1 (.leaf 186731001866811866710186651907521907311866311866211866111866011865910186571906620)
 (.leaf 186841186831182621868219089318681118680190882186791186781001867719083201867510)))))
 (.node 8 (.node 4 (.node 2 (.node 1 (.leaf 1870019107218699191062186981000186961910220191011191001190981909721909610)
 (.leaf 1829911829710018291118290118289118288100000000))
 (.node 1 (.leaf 1873710000001872811830511913410191321191311000)
 (.leaf 1875311833119159191581915741875118749218748118747191542000018744191502187411187401183191873920018317187382)))
 (.node 2 (.node 1 (.leaf 1876711834518344183431876618764191726187631917121834118762191703000187601875819166300183351875719163318756100)
 (.leaf 1878510000187781183581183571835621877711835418353218773100187721183501877119178318347187682))
 (.node 1 (.leaf 183791880121880011879711837518796200018794192011920031879319199218792191982183691879121879010018787118365183632)
 (.leaf 18814118813118392183911881231881111881011880911880811921410019212118805118804118803118802192082))))
 (.node 4 (.node 2 (.node 1 (.leaf 188291192351188271188261923321882518823192311923040188211188201001881711839618395188163)
 (.leaf 18847119253118845192522188441000188421924921884118839192481924741883819245200001883310))
 (.node 1 (.leaf 18437184361885831843518857218856118434188552188541926119260318853118850101884819256192553)
 (.leaf 1845818879218878118455188771928331887611845418875218874192812188731188701927920192771188691927619275318868119274192732188661)))
 (.node 2 (.node 1 (.leaf 188971930320018894188921930031889111889010192961184681888921888810184641888619293318885118884118883192902188821)
 (.leaf 193191189101193161001890818906193153184841890519313319311118903118481189021930930184791890021889911847718898200))
 (.node 1 (.leaf 193361933519334300018925189231933130019328101891810000189151932219321318914193202)
 (.leaf 19351118943189411934931894010193461189391189381189371893519344318934193422189331193401933920193381189291933720))))))
 (.node 16 (.node 8 (.node 4 (.node 2 (.node 1 (.leaf 18961101895919365218958189561936419363401936219361218955189532189521001894919357200000)
 (.leaf 1897611897519382218974101938019379218549101854618967219373100189651189641185411189621))
 (.node 1 (.leaf 189821189811939419393301897710)
 (.leaf 19009194192190081941721859819007218596190062190051941620018593190022190011899920018998118587189972000)))
 (.node 2 (.node 1 (.leaf 19023101902119019219429119017101901511901410001901019421200)
 (.leaf 1903810190361190351190321944420019031194421944131903019028194403018617190262190251943620))
 (.node 1 (.leaf 1905511905419465200019462100001904710019044119043119453194512)
 (.leaf 190711190701000018656190652186551906421906311906210018652190612186511865019060300))))
 (.node 4 (.node 2 (.node 1 (.leaf 1908711908611908519501195003001908410190821190811019077119076194872019074101907219484194833)
 (.leaf 19105119104195182191031195171195161195141190991951321951211909519511219094195101950931909319508219092195072019090100))
 (.node 1 (.leaf 195341195331187071911619532300000001910810000)
 (.leaf 1913510000000018720119127100000)))
 (.node 2 (.node 1 (.leaf 19152195722191511914920019148195682191471019145119144100195611000)
 (.leaf 187611916821916719165200191621958321916110019160195801957931957811915619577200191551915320))
 (.node 1 (.leaf 18776187751918331877410001917611877018769191753191741959719596319173195952187651019592100)
 (.leaf 19192196142187841919121919019612196113187831878219189319188101878111878018779191873191861)))))
 (.node 8 (.node 4 (.node 2 (.node 1 (.leaf 1921510001880619213196343000192091920719630196294001879919206200192031192021)
 (.leaf 1965210192291192281965021922711922611881918818200188151922221922111922019641219219119218119217196382192161))
 (.node 1 (.leaf 1924619669200019244119243119242119241196612192401192391966021923819659196573192371192361196561965521923419232196543)
 (.leaf 192651192641192631968419683196824192621192591968121925819680196793001925719677219254119675196742019251196722019671119250196702)))
 (.node 2 (.node 1 (.leaf 197011192801197001192781969820000019272119271118863192702188621926921926811926719687219266196862)
 (.leaf 1929719718197173019295197152192941001929111971111928911928811928711928619707219285197052192841019282197022))
 (.node 1 (.leaf 1931219310197323197311193081019306100193051000192991972121929819720200)
 (.leaf 197491193271193261974621891719325218916193242193231974320197411974021931811931711973810197361019314197342))))
 (.node 4 (.node 2 (.node 1 (.leaf 19345101934319341197641976241976110019758100019333197552019754119332193302193291975120)
 (.leaf 19359100193581935621935519777219354197761977531935310000193501934821934719770197683000))
 (.node 1 (.leaf 1979710000193721193711189631937019790319369118960193682193671978819787319366197862000193601)
 (.leaf 19386119385119384100193831019381198011980031979919798200)))
 (.node 2 (.node 1 (.leaf 194091000000000000000)
 (.leaf 1901319423219011101942019834200000019415100190001941220194101))
 (.node 1 (.leaf 19439198541985331943810019435119024100194311194301019428119427100194261)
 (.leaf 194551001945410194521945019866198644190391944920000194461986021944519858201944310)))))))
 (.node 32 (.node 16 (.node 8 (.node 4 (.node 2 (.node 1 (.leaf 190591905819471194694194681194671194661988120194641194631019461119460100194591987321904619045194583)
 (.leaf 1948611948510198971194821194811194801190691947921906819478198931989241906719477219891119475100194721))
 (.node 1 (.leaf 1950319923200195021194991194981001949711949611990810199061019904199032194881)
 (.leaf 19520119519199392199381001951519935199343000199301019929199282190911950619927199264195051195041)))
 (.node 2 (.node 1 (.leaf 1953510001953110000001952411952311952211952110)
 (.leaf 19133100019130119129119128100000000195361))
 (.node 1 (.leaf 19567101914611956611956519982200019978100000195531195521)
 (.leaf 19996199952195761019993119575119574199912195731957119990199894000))))
 (.node 4 (.node 2 (.node 1 (.leaf 1917919599219177100019594119593101959111916919590200102000841958911958811958710019164195842)
 (.leaf 19615200332191951919419193319613100000196091196081191851918421960410019182191811960319601419180196002))
 (.node 1 (.leaf 192111963321963211921019631219628200472020045119205196272196261192041000019620119197196172191961)
 (.leaf 196472006521922519646219645119224192231964430001964010019637119636100196352005320)))
 (.node 2 (.node 1 (.leaf 196652008321966420082200813196631196621000196582007520019653200722007130020069119651196492006831964820067200663)
 (.leaf 20098200972196782009622009511967612009410196731000000196681196671196661))
 (.node 1 (.leaf 1969711969611969511969411969311969211969110196892010621968810019685201022010130020100200992)
 (.leaf 19292197132197121201292012821971020127219709119708101970619704201243001970320120200019699120116201152)))))
 (.node 8 (.node 4 (.node 2 (.node 1 (.leaf 201451001930419726219302119724201412197231193011972221971920138200201351019716101971420132201313)
 (.leaf 197451197442016220161301974220160219739120158201572201551019737201542019735120152119733201502197301197292014821930719728201473))
 (.node 1 (.leaf 201781197591975720176319756201742201731019753119752201712017030001975019748220165101974710)
 (.leaf 1977411935219773219772100197711201871197691976720185319766100197632018120201801201791)))
 (.node 2 (.node 1 (.leaf 1979110197892020820020206119785119784202042020330020201202002197821019780201982197792019720196319778201942)
 (.leaf 19807119806120223119804100019802120217100020213119374100))
 (.node 1 (.leaf 19825100000000000019812100)
 (.leaf 194251942419838319837119422198362000198321194181198301000194141941319828319827119411198262))))
 (.node 4 (.node 2 (.node 1 (.leaf 1985611985520269219852119437198512198501001984911943419433194321984819846501984411984311984211984110)
 (.leaf 194571945621987011986911986820282219867198652028120280420279119863119448101986220277202763194471986120198572027220))
 (.node 1 (.leaf 194741947321988610019470119884101988011987920295200019877101987510)
 (.leaf 19905119902203182031731990111990020315219899100198961198951198941000198902030521947619889219888203032)))
 (.node 2 (.node 1 (.leaf 19921203382199201199191199181199171000020325120324101990712032210203201)
 (.leaf 1993720354203533199361203511019933119932203482199312034720346300019925203442034331992420342220341100199221))
 (.node 1 (.leaf 199531000000199441199431199421199411001994020356200)
 (.leaf 1955019549219968119548199672195471019962203772020376119961101995710019954100))))))
 (.node 16 (.node 8 (.node 4 (.node 2 (.node 1 (.leaf 1998511998420398219983119980203962039520394400199792039220199771000001955110)
 (.leaf 195821999921958110001999420409204083000204052040420001957019569199882040241998711998620400203993))
 (.node 1 (.leaf 2001510200131200121002001110200092000720422320006120005204202041932000411958619585200032041740020002200002)
 (.leaf 20030119610200272020025120024119607196062196051020020119602100195981)))
 (.node 2 (.node 1 (.leaf 20048102004410019625119624196232004231962210196212045222003811961919618200373196162003620034300)
 (.leaf 200631200621196432006121964220060220059120058119639200572020055102046812005410020051204652200501))
 (.node 1 (.leaf 2007912007812007710020076200742048932007310020070204852000020480204792200641)
 (.leaf 2009310020092120091120090120089120088120087102008512008420498204973204951200801))))
 (.node 4 (.node 2 (.node 1 (.leaf 2011320526220112120111120110120109205232052231969020108220107201052052020519400201042051722010320515220514102051212051110)
 (.leaf 201261201252012320020122205362053532012120119205333020532120118205312201171201142052922052810))
 (.node 1 (.leaf 2014311972520557202014220140205553201391020137120136120551205502201341002013320546202054420543220130205422)
 (.leaf 201591201561205691020568102015310201512014920565320563102014620561201972720144205603)))
 (.node 2 (.node 1 (.leaf 201772017520591300000201691201681002016712016620164205793002016310)
 (.leaf 2019112019020605220189206032201881000201862018421976520183205983201822059620000197601205921))
 (.node 1 (.leaf 202072062120202052061820197832061720616320202120614101978120199206123206111201951206081201931201921)
 (.leaf 1980519803202222022042021910020218120630120216120215206292202142062822062611979212020910)))))
 (.node 8 (.node 4 (.node 2 (.node 1 (.leaf 202301202291002022810202241)
 (.leaf 202551198401983920254206702066852025312025210019835119833202502202491198311202471198292024620244300202431202421))
 (.node 1 (.leaf 202711002027020268206823206811020267120264120263206782198472026220676320261206752198452026020674320259120258120257206722202561)
 (.leaf 1987219871202883020284100202832069720696300202781206932069220202752069021985920274220273206882206871)))
 (.node 2 (.node 1 (.leaf 2030220717219887203012198851202991019883119882202982000019878202932019876202912198741)
 (.leaf 20733120319207322073132031610203141203131198982031222031112031012030920724207233203081203072072122030610203041))
 (.node 1 (.leaf 203371203361203351203341203331000207421203261207391020323207382000)
 (.leaf 2035220769202035020768220349120766120345102076110000000))))
 (.node 4 (.node 2 (.node 1 (.leaf 20368100002036112036012035920777220358100203572077420203551207711)
 (.leaf 199692038320020382100000020375119956119955120370100))
 (.node 1 (.leaf 20401208182081730002039720814208123000203931020391100199721199711199701)
 (.leaf 20415120001102041411999811999720412202082612040720825200199922040620000)))
 (.node 2 (.node 1 (.leaf 20017204312204301200162042922001420428208463204272084420000000020418102041620834208333)
 (.leaf 200321204461200312044522002920028204422085942044112044012002620439208573204381204372085422002320436220022204352085332002120434220433208512085032001920018204323))
 (.node 1 (.leaf 20049204642088132046310200461002045812004320041204573002004020039204543002003520451204493204481)
 (.leaf 2048120897208963204781204771204762089322047512047420891220473120472208892204711200562047022046910020884120052204672204661)))))))))
 (.node 128 (.node 64 (.node 32 (.node 16 (.node 8 (.node 4 (.node 2 (.node 1 (.leaf 20494120493120492120491100204902048820906320487209052204862090320204841204832090122048210208981)
 (.leaf 20510120509102050712050612050512050412050310020086120499120496209142))
 (.node 1 (.leaf 205271209431002052512052420941209402093940020521209382093730020518209342020516209322205132093020)
 (.leaf 209622096020205411205401209571209561205392095522053812053720953220534120952209512095030000205301)))
 (.node 2 (.node 1 (.leaf 205591205582097720976300209731205561020554209712205531205522096822054910020548120547205452096430)
 (.leaf 20575209922002057412057312057220988220571100002056610205642056220980300))
 (.node 1 (.leaf 20593210102205902100822058910002017220587210033205861205851002058212058112058020578209963205771205761)
 (.leaf 20607210252102432060610206042102222102012060212060112060012101610205992059720000205941))))
 (.node 4 (.node 2 (.node 1 (.leaf 2062012061921035202103310206152103221031302061321029220610210282102732060910)
 (.leaf 2063712063612063521051220221206342206331210481206311210461021045210442002062710))
 (.node 1 (.leaf 0)
 (.leaf 2067120669210812108040206671206661202511206641021074120248206632020245206592000)))
 (.node 2 (.node 1 (.leaf 206861020684102109312068321091220680120266202652067930206771021087121086210852108432067310)
 (.leaf 20290207032202892070222111212028720700220286202852069921110420698100206951206941002069121102202068910))
 (.node 1 (.leaf 207191211292112820207182071622071521125220714120300207132112432071221123220711120297211202202961207101202942070722070612029220705220704211142)
 (.leaf 20321207362114532073512073421143202073012072921139220728211382207271207262113620020725211342207221211311207201)))))
 (.node 8 (.node 4 (.node 2 (.node 1 (.leaf 20753120752120751100000211541211531207411207402115120000)
 (.leaf 211861211852118421183320767207652207642118122076310020762102076012034020759220339207582207571207561207551207541))
 (.node 1 (.leaf 20781120780120779120778100020776120775207732119221191421190102077210207701)
 (.leaf 2079612079510207911207901002078912036920788200)))
 (.node 2 (.node 1 (.leaf 208161000208101000208081203841020805120804100)
 (.leaf 208311204132083022082912041120410208283000208241208232124922082221248212473204032082122082012081910))
 (.node 1 (.leaf 208471000204262084322084212042512042412042320839220838120421208372208361002083510)
 (.leaf 2086512044720862220861212892204442044320860302085810208562128421283320855100000208491208482127721276212754))))
 (.node 4 (.node 2 (.node 1 (.leaf 2130712088012046220461208793020460204592087732087621302220875213002208742129922045620455208733208722129821297320453208712208701208692129622045020868200)
 (.leaf 208952132222089410208921213181208901020888120887120886100208851020883120882213092))
 (.node 1 (.leaf 213381209101209091209081209071000020904209022133030209002132822089910213251213241)
 (.leaf 209281020508209262209251209241209231209221209211209201205022050120919320500209182209171209161209131209121)))
 (.node 2 (.node 1 (.leaf 20945120944209422137032136910213682136720002136312093612093510209332093122135712092910)
 (.leaf 209612095921387321386102095812138421383213823002095410020949213782209482137620213741209471209461))
 (.node 1 (.leaf 20975214032140230020974209722139930209702139820213961209691000209652096321390302138910)
 (.leaf 209911209901021416120989209872020570214132209861205672098520020982214082209812097921407300214041))))))
 (.node 16 (.node 8 (.node 4 (.node 2 (.node 1 (.leaf 210071210062143422143312058821004200021002120584205832210001209991020997209952142332099410214191)
 (.leaf 21019121018121017100021015100205952101222101121009214383214351))
 (.node 1 (.leaf 2104110021036102103410000000000)
 (.leaf 21050100206322104921047214752147452147310000210431210421)))
 (.node 2 (.node 1 (.leaf 206622066121073321072102066021070220658100000000000)
 (.leaf 21512102108310215101210822150822107912107812107710206652107520215021215001))
 (.node 1 (.leaf 21103211012153021529402109921526221098215252210971210962152322109512068510210942152020210922109021519215182151752108912108821516215153)
 (.leaf 2111912070920708211183211171211162154422154312154221541221115102070121113211112153940211091000211071211061))))
 (.node 4 (.node 2 (.node 1 (.leaf 2113510211331211321215591211302155720021127121126100002112110)
 (.leaf 2115221150215793211492157722114821576215753207372114721574300211462114421571321570121142121141215692156832114012156612156512113710))
 (.node 1 (.leaf 21169121168121167215972211661002158921588202158721586202158512115621584215833211551000)
 (.leaf 2161521614221182121611121180102160912117912117812117712117612117512117421604221173121172121171121170216002)))
 (.node 2 (.node 1 (.leaf 216291211981211971211961211951211941002119312162212118912118810000)
 (.leaf 216421216401000216311216301))
 (.node 1 (.leaf 2122110212171212161)
 (.leaf 21246121245100212441020815212422212412168222081312081121680221238120809212372167832123612123510)))))
 (.node 8 (.node 4 (.node 2 (.node 1 (.leaf 2126310021701102083221260200021256121255120827212542212532169322125212125121692216913212501)
 (.leaf 2085221279221278102171610020845212712002126821710220841208402126732126610212641))
 (.node 1 (.leaf 21738102086721295217363208662129422129312129212086420863212913212881212872172922128610021285217262212821212811212801)
 (.leaf 217511213111213101217491213081020878213062213051217442174322130321301217423000217402173920)))
 (.node 2 (.node 1 (.leaf 213271213261021766121765102132321321217623213201213191021317121316217582213151213141213131213121)
 (.leaf 209151213411213401213392177921778321336121335121334100213332177421773321772121331213292177130))
 (.node 1 (.leaf 213611213601213591213582135621799321796102135512092712135312135210213501021348100)
 (.leaf 21377213752218172181621815321373121372121371121812100218091213661021807121365121364121804121362218022))))
 (.node 4 (.node 2 (.node 1 (.leaf 2183310213912183120021388218292182821827421826102138521825202138121823202182012138012137910)
 (.leaf 21409121406121405218472209782184620021843218422002140021840221839102139721395218373213941209672096621393321392218342))
 (.node 1 (.leaf 209982142522142421864218633021420120993121418121417218592218571002141510021412120984209832141130)
 (.leaf 21013121439214372214362187820002143221875221005214312214302187222142912186910210012142822142721868221426218662)))
 (.node 2 (.node 1 (.leaf 2103021455200021026102102310210211021447100214441214431210142144221440218814)
 (.leaf 2147112147012146912146810000021460100214591214561))
 (.node 1 (.leaf 2147812147710021476121917219162214721)
 (.leaf 21076121946121503215012021943102107112149610210691000000)))))))
 (.node 32 (.node 16 (.node 8 (.node 4 (.node 2 (.node 1 (.leaf 21521219622219601219591002151421957219563002151310215111021509100215041)
 (.leaf 215351211082153420021105215332211041215311215281211002152720219682196720000215221))
 (.node 1 (.leaf 21549121122215482215471215462198822154510219861219851021983102154021538219813215371215361)
 (.leaf 2201022009202156722007221564121563121562122004102156112156021558220012200040215561215551215541215531215521)))
 (.node 2 (.node 1 (.leaf 220251215821215812202422158012202212157812201910220181021573121572122014100220111)
 (.leaf 215991215981021596121595121594100002202910220282202720))
 (.node 1 (.leaf 216161002161322054221612216102205230002160812160712160612160510216031216021)
 (.leaf 2162812162712162612162512162412162310002162121619202118710))))
 (.node 4 (.node 2 (.node 1 (.leaf 21215212142164932121312121210002164122086220853021639102208310000216321)
 (.leaf 2165610021651121650100))
 (.node 1 (.leaf 212402123921681322128121679122127221262212532167712167622124221675121674102211810022117122116100)
 (.leaf 216971216961216951002169010216881000221352213422124321685221684121683122130221292)))
 (.node 2 (.node 1 (.leaf 217111212702126922170922159221708121707121265217062215530021705217032212622126121702221514021700102125921258221257216992216981)
 (.leaf 2172721725221762217542172412172312172222172221721221712022169121720121719102171522166221653212742127321714221634212722171320))
 (.node 1 (.leaf 217452219322192300021741221902218832218710021737102173510002129021731221728221782)
 (.leaf 2175710021754121753100002175010217481217472219622130421746221943)))))
 (.node 8 (.node 4 (.node 2 (.node 1 (.leaf 2177522225200002177012221812176812176710000217641217632176122212222114217601)
 (.leaf 2179312135121792221349217912217901213472178922134621788221345217872021344213432178532134210217822223022178112178012177710))
 (.node 1 (.leaf 218082225620218062225422180521803200021801222502218002179822179712224610021354217952217941)
 (.leaf 2182410218221218211021819100218141218132226422262302181122261200218101)))
 (.node 2 (.node 1 (.leaf 21838222882021836121835222862022283100218322183022280222794022278222772022276222752022274222732)
 (.leaf 2141412185510218531214102185221850300218491218482229620021845222932218442229222140121841222912229040))
 (.node 1 (.leaf 21871121870223192000021867223152231430218651214222142121862223114218611002186010218561)
 (.leaf 21889121446218862214451218841218831214412188220000218771218761021874121873122322223212))))
 (.node 4 (.node 2 (.node 1 (.leaf 223542235322352321902121461219012235122350421900121899121458214572000214541214532145221895321894121451218932214502189222341321449218912214482189022339223384)
 (.leaf 21918100219151219142236920021913121912121911100000))
 (.node 1 (.leaf 0)
 (.leaf 21953121952219502240032150712194822396221506215052021947121944102194212238910214992194122149821497219403219391219381)))
 (.node 2 (.node 1 (.leaf 21969224152215242196622196512196422413221963122410121961100219582240722406300002195512195422402224013)
 (.leaf 2243122430221982219802242932197922428221978224272219771219761219751219741215322197320219711219702241922418300))
 (.node 1 (.leaf 21999224492219981002199512199410215512155020021989102198710021984224322)
 (.leaf 2201512246312201312201212246012245910002200822006224553220051022003122002100))))))
 (.node 16 (.node 8 (.node 4 (.node 2 (.node 1 (.leaf 220311220301000002247210022023220212247022469400224661220171220161)
 (.leaf 2204912204812204712204610220441220431216012204222204112204022038200220371220361220351220341))
 (.node 1 (.leaf 220651220642251222206312162022060222059121618216172205822507422057100220561220551225022250122205322051225003000)
 (.leaf 2253210000022073122072100022068122067122066100)))
 (.node 2 (.node 1 (.leaf 2209410000000000022084100)
 (.leaf 225621000002255622555202255422553202210110022100100))
 (.node 1 (.leaf 221231225731022122225722225701225691000022115122564225632)
 (.leaf 216941002214022138221689102213712168721686221363000221321221312257920))))
 (.node 4 (.node 2 (.node 1 (.leaf 22157122156226072022154121704221532260522604422603100000000)
 (.leaf 22626122174122173122623100022170226192022168226172217182171722167322616226152022164221622261432171222161226123221601))
 (.node 1 (.leaf 22191226412000221892263920022186122185102173421733221732221822221811217301221772262720)
 (.leaf 2175922207222206226562222051217562220422175522203222202122201121752100022198122197122646122195226442226421)))
 (.node 2 (.node 1 (.leaf 22674122673122672122220226712222192267022669322668122217122667226662222151222141222131002221022661222209122208226592)
 (.leaf 2224110222391222381022236122235122234121784217832223332268112223112267910000))
 (.node 1 (.leaf 222572225522706302225310002225110002224512224422694200222431222421)
 (.leaf 2227212227112227012226910218181222661222652226322714300222601000222581)))))
 (.node 8 (.node 4 (.node 2 (.node 1 (.leaf 22289222872273830222852273622228410222822273222228122731200227291000000)
 (.leaf 2230412185422303202230112185122300222983000022295102274322742222741100))
 (.node 1 (.leaf 22318122317100022313227632223121227611223101223091223082275820021858223072230530)
 (.leaf 2233512188510022331100218802233022187922329200022323100223201)))
 (.node 2 (.node 1 (.leaf 223492280122234822799222347227982279732189821897223463223452279622795321896223442002234312234210223401021888218872)
 (.leaf 2236712236612236510000000000228021))
 (.node 1 (.leaf 219191002237010223681)
 (.leaf 22849121951223982219492239720223951223942284322842321945122392122391122390100022388100))))
 (.node 4 (.node 2 (.node 1 (.leaf 224142286220224121224112286022859302240922857222408100224052285420022404228522224031228501)
 (.leaf 22877100002242412242312242222870222421121972224202022867122417228652224161))
 (.node 1 (.leaf 2244610021997219962244532244212244112244022888221993219922243932199121990224382288742243712243622884222435122434100)
 (.leaf 22912122462229112291032290910224611002245812245712245622454222453229012224521002245112245022448228963)))
 (.node 2 (.node 1 (.leaf 224791224781224771022475122026224742224731229201002247122918222020224682224671229141224651224641)
 (.leaf 2249722947222496122495122045224942224931224921224912294122249012248912248812203922487229373224861224851224841224831224821))
 (.node 1 (.leaf 225131225102296122206222061225092296042250810225062295822250510022504229552225032295322952302249912295110220502249822949229484)
 (.leaf 229771022524229762297530022523122972122071229712225181220702206922517322516122515100225141))))))))
 (.node 64 (.node 32 (.node 16 (.node 8 (.node 4 (.node 2 (.node 1 (.leaf 22097225422299732209622095225413002254012299312253610022535100000)
 (.leaf 225592301822255812255710000002255223011230103225511225501230071000))
 (.node 1 (.leaf 2257410000023027102256610000023020230192)
 (.leaf 221421221411022139225902225871000225852304422213322584222583230422022581122580230392303830225781)))
 (.node 2 (.node 1 (.leaf 2260612306423063230623226021221522260123061302215012214922148200221472214622214522596222595122144221432)
 (.leaf 22625122624226222230811022621122620226182307830023076123074100226111226101022158226082))
 (.node 1 (.leaf 2309910022638230972226371226361221841226341221831226301226291221802217920000)
 (.leaf 22655122654122653122652100222001022199122648100226452264323102300226401))))
 (.node 4 (.node 2 (.node 1 (.leaf 2313023129202312810023125231242226642312322266310022662226602312130226582311822265710)
 (.leaf 22689122688122237226872226861226851226841231411226821000222272267822222622675223134231332023132231312))
 (.node 1 (.leaf 22252227032316232270212270112224922700222248226992222471226972315622269612269510226931226921226911222401)
 (.leaf 227211227201222682271922271823177222267227172227162317422271523173222712100022259227102316932270912270823167222707231652227041)))
 (.node 2 (.node 1 (.leaf 2273512273423193222733100227302319020227282318822272723187222726100227251227241227231227221)
 (.leaf 227531223022275222275110222992274920222971227461227452320322229422744200022740122739227372319730))
 (.node 1 (.leaf 223162276620227642322120227622276022275923219223218232172227571002230622756200)
 (.leaf 22334223332278332278212233222781200227781223282277722232723235222326223252227741227731223242277222277110022770227682)))))
 (.node 8 (.node 4 (.node 2 (.node 1 (.leaf 2280010232562325520000227931000002233722336227873227841)
 (.leaf 228171228161000228101002326710232651232641228031000))
 (.node 1 (.leaf 228221223712282120000228181)
 (.leaf 223992284822846322845233012228441232991022393228412228401228391000228371000)))
 (.node 2 (.node 1 (.leaf 22863123319233182228611002285810228562331322285510023310233092228531000)
 (.leaf 228792333522287810002287412242622425222872122871233282233261228691228681000228641))
 (.node 1 (.leaf 2244722897228952335323352522894122893122892122444224432289130228891002288612288512334012288312288212288123337222433228802)
 (.leaf 22908233652229071229062336322290523362222904233612229031229021000229001228991228981))))
 (.node 4 (.node 2 (.node 1 (.leaf 2292712292612292512247622924202292223378222921123377122919233752022917233742337330002291310)
 (.leaf 229451229442339822294312294210229401229391229382339220229361229351229341229331000))
 (.node 1 (.leaf 2295910229572341320022956123409122954100022950234042000229461)
 (.leaf 229742343022297323429200234251229691229681229672342323422322966122965122964122963234192225112296220234161)))
 (.node 2 (.node 1 (.leaf 23447100022987100225341225332298520225312298320022978100)
 (.leaf 230092346723466323008234652023006234632000000022996234522000229941))
 (.node 1 (.leaf 22565230252230241230231023021123477100023016123015123014234722347132301323470223012100)
 (.leaf 225822304122304010022577230372349532257623036222575230352230321002257112303010225682256723028234864234841230261))))))
 (.node 16 (.node 8 (.node 4 (.node 2 (.node 1 (.leaf 225982259723057302305512259422593223053122592122591122589230482225881230461022586123045100235001)
 (.leaf 22613100226091230671230661002306523522223521235202000226002259923060300))
 (.node 1 (.leaf 22628230892308732308612308510023084235422230831230822308023539300230791002353312307523073235322353140)
 (.leaf 231041231032310123561300231001023098100230951226352309422309323551222633226322263123092423091123090235482)))
 (.node 2 (.node 1 (.leaf 231191023117235762357530231151231141231132357122311212311110226511226502264923110300226471231061)
 (.leaf 231352359322359210000023587100231271231261235821002312023579235783))
 (.node 1 (.leaf 23153123152123151102269012314812314712314612314512360112314312314210023139123136235962)
 (.leaf 231682362520231662362322270512316412316323161200231601231592361622269823158223157231552361330023154236112))))
 (.node 4 (.node 2 (.node 1 (.leaf 231801002317912317812363512317612317523631222713231722231711231702362920227111)
 (.leaf 23199123198231962365630231941023192123191123649123189100000))
 (.node 1 (.leaf 2321523673223214122755227542321330023212123211123210122750123208122748227472320730023202100)
 (.leaf 232312368922323012322912322823686223227122769232262368430227671232251227652322422322312322010023676236752232161)))
 (.node 2 (.node 1 (.leaf 227902278922278823248223247123244122786227852023243123240236992232392369722278022779232383232371232361236941227762277523234323233123232236912)
 (.leaf 2326312280423262223261100232601232592371722325823716200002279423253222792227912325223250400))
 (.node 1 (.leaf 23281102327910000023271123270122811237282232681023266100)
 (.leaf 23297123296122838100000000000228201228191)))))
 (.node 8 (.node 4 (.node 2 (.node 1 (.leaf 22851233072376832330623767222847233052330332330210233001000232981)
 (.leaf 23327123788237872233252378620233231233221228662332120002331723779223316123315123314102331223775237743))
 (.node 1 (.leaf 2334312334212334112380212333912333823800237993237981233361237971237951002287622875233313233301228731237901)
 (.leaf 23822123360123359123358123357123356123355123354238152381423813423351100233502334822334712289023346238083233451233441)))
 (.node 2 (.node 1 (.leaf 2337212291623371222915233702383132336912336812382810233671233662336423826323825102382310)
 (.leaf 233911233901233891000233832384422338212338112338012292323379202384012337623838238373))
 (.node 1 (.leaf 23407102340510234031002340012339910233971233961233951233941)
 (.leaf 234241023420100023877123417234152387630023414238742000234101))))
 (.node 4 (.node 2 (.node 1 (.leaf 2298412344012343910002343312343212343110023428123427123426100)
 (.leaf 22998234542391623915423453102299523451223450102344810000002298610))
 (.node 1 (.leaf 23473239342002393223931223469239302234682392820239271023464239252023462123461239232000)
 (.leaf 2395012348812302923487202348510234832394422348212348112302223480223479239402234781023017234762023474239352)))
 (.node 2 (.node 1 (.leaf 2350110230431000234971234961023494239562234932395422303423033234923234891230311)
 (.leaf 235192398320023518123059235172230582351420230561235131230542351022305212305123050235083235071230491230472350520))
 (.node 1 (.leaf 23537239992023077235352002399423993202307223071235303230702352923991323069230682235272352522398710000)
 (.leaf 235531235521023550123549102354712308823546200002354112354010235381)))))))
 (.node 32 (.node 16 (.node 8 (.node 4 (.node 2 (.node 1 (.leaf 2356812310923108231073000231051235621000023557123556123555240172401632309623554240143)
 (.leaf 2358512358424045223583240442023581240422404130235772404020240381231162357422357312357224034202357012356910))
 (.node 1 (.leaf 235982406024059240584235951235942405720023591240532235901000000)
 (.leaf 236172361524078323614124075100002361024071223150231492360923607240702406960000236041240641236021)))
 (.node 2 (.node 1 (.leaf 236332409422363223630240933023628240912236272409022408910236261023624124085240842236221236211000)
 (.leaf 2364724110241093002364612364512318623644223185236432231842364222318323182236412410342318123640241023236371000023634240952))
 (.node 1 (.leaf 23665123206232052366432320423663200023201232002365930236572365524119241174236541231952365322365212365124114223650241132241121236481)
 (.leaf 2322223679223678241412414030002367424137202367212367110000236681232091236661))))
 (.node 4 (.node 2 (.node 1 (.leaf 241561236952369322369210024152123690236882415032368712414912414710000236801)
 (.leaf 23254237132237121023251237102023249237082237051023246232452370332370210237001232422324122369810236961))
 (.node 1 (.leaf 23729237272232692372622372512372424186223723124184102372223720241823237191237181000023257237152237141)
 (.leaf 232822374020023280237392237381237371237341002373312373010241911)))
 (.node 2 (.node 1 (.leaf 23759123758123757123295232942232931000000000)
 (.leaf 23311237722423230002330810002330423766237643023762242202237611237601))
 (.node 1 (.leaf 23791102378924248224247100233242378520237831237821233202378122378024239242383023778123777123776242352)
 (.leaf 23807123806242652238051000238012426020000237961242541233342379424252323333233322379330)))))
 (.node 8 (.node 4 (.node 2 (.node 1 (.leaf 242791238211238202427824277323819123818123817123816242742427332427224271223812100233492380920)
 (.leaf 23836123835123834242922238331238322429020238301238291023827100238241))
 (.node 1 (.leaf 23857123856123855123393238542238531238521238511238501238491243052430422384524303224302123843123842243002238411242981)
 (.leaf 2341223411200023408102340610002386312340223401238623238611238601238591238581)))
 (.node 2 (.node 1 (.leaf 238881023884123883123882123421123880123879102341812433710000)
 (.leaf 23443123442123900123441123898100238971023893123892123891102388910))
 (.node 1 (.leaf 239211239201239171002391412391310023912123449239112239081002390710)
 (.leaf 2393712393612439310239331024389124388123929102438612392610239241243821239221))))
 (.node 4 (.node 2 (.node 1 (.leaf 23491234902395332395224409223951239492024408244072239481239472440522394612394510002394124399224398123939123475239382)
 (.leaf 235062396724426323966123504235032396524425244245235022396424423323963244222239622442122396112349923498202396024418223959244172239582441622395710239551244121))
 (.node 1 (.leaf 2398210239801235162397922351523978202397610235122351122397112350910239681)
 (.leaf 24000123536123998123534123996100000235282399022352612352423986244463235232398524445323984244442)))
 (.node 2 (.node 1 (.leaf 2401510240131240121240111240102446820235452400822400712354423543224005100240021)
 (.leaf 24031100235672356622402910235652356420235632402320244821235602355923558300240191240181))
 (.node 1 (.leaf 2358610024046124043124502100240392450024499300244961240351024033244932240321)
 (.leaf 240651024061102451924518200240561240552451522405410002358912358810))))))
 (.node 16 (.node 8 (.node 4 (.node 2 (.node 1 (.leaf 23619240812453932361824080224079240772240761245341245331023612240742407230024529100240681240671245241)
 (.leaf 24097124096245542024092100245491240881245472454620240871240862454420245421240832454122362024082245403))
 (.node 1 (.leaf 2457012411110024108124107124106124105245642241041002363923638241013241002409820236361)
 (.leaf 23667241292024127245852241261241251236622366123660241244000236582412024118245794245761241161241151000)))
 (.node 2 (.node 1 (.leaf 236832368222368124142200002367710000241341236702413322413212366924131245893241301)
 (.leaf 24159246192241581241572461720024613124155102415324151246112461042460912460812414812460712368524146224145124144246032))
 (.node 1 (.leaf 2417710024174123711241732241721237092417122370723706202370424166224165100237011241611241601)
 (.leaf 241922465022418912418812418710002372124183224642124181124180100241791241781))))
 (.node 4 (.node 2 (.node 1 (.leaf 24201100242001241991241961002419510)
 (.leaf 2376524224242223237632422122467312421924672224671100242171024215100000))
 (.node 1 (.leaf 2423712423610000242332468520237732423122377112422912377023769242282422642422510)
 (.leaf 24706124705247042242511242501237922424920024246124245100023784242412242401)))
 (.node 2 (.node 1 (.leaf 247221023811242682472132381024267247203242661002426312426212380423803202425912425810242561)
 (.leaf 242871242862473822428510242831002428212428112428010024729124276124275247262247251))
 (.node 1 (.leaf 247541243011247532475222429910238391024295247482474732429424746224293100247421242891242881)
 (.leaf 24316102431412431312431212431112431010000)))))
 (.node 8 (.node 4 (.node 2 (.node 1 (.leaf 2387510238732387220238711238701243291238692386822386723866243273023865102386424325202432310)
 (.leaf 2389024352202434812388710238862388520023881243422024340102387824338200))
 (.node 1 (.leaf 239092436724814300000238991000000000)
 (.leaf 2438512438412438324831224830124381124380124379124378102437412437324818202437112437010239101)))
 (.node 2 (.node 1 (.leaf 23942244012484932440024848224847124846124397124396248442243952484322439424392248413243911002439012483724835202438710)
 (.leaf 24415248632244142486122441324411248593244101248582485720024855124854124406102440412440324850223943244022))
 (.node 1 (.leaf 2397323972202397023969244283244271024873102487212487124870224869124420124419248682248672486620248651)
 (.leaf 239892398824449244474000024891124443124442124441123981244402002397724437224436102397523974244343))))
 (.node 4 (.node 2 (.node 1 (.leaf 240062446522400424003244643244632446124911302400112446010023997244572244561239951002399212445110)
 (.leaf 24022240212402024481424480124479124478124477249252000244731024471124470124469249172240091244671244661))
 (.node 1 (.leaf 244922494020002403012448912402824488244863240271240261240252448522402424484224483124930249292)
 (.leaf 240522451122405124050240492451042450924957224508124048240472450732450612450510245032450124950300244982494622449710)))
 (.node 2 (.node 1 (.leaf 24528124527124973124525102452112452010249672496622451712451624965202451424963224513249622245121)
 (.leaf 2454524543249923249911024990249892024988124987124538249852245371245362498424983324535124532124980102453110))
 (.node 1 (.leaf 24561250092500832456012409924559250072500642455812455712455625003224555245532500232455225000202455010245481000249931)
 (.leaf 24575124574250232245731245721245711000002456710245651000))))))))))
 (.node 256 (.node 128 (.node 64 (.node 32 (.node 16 (.node 8 (.node 4 (.node 2 (.node 1 (.leaf 245931024591124590102458812412824587224586245842245832503220024123241222458232412124581224580245782502732457710)
 (.leaf 2460612505412505312460525052224143246022246011246002504925048324599124598124597124139241382459625044424595125043124136124135245942))
 (.node 1 (.leaf 241642416324622324162246212246201024618102461612461510024614250612506032415412461212505710)
 (.leaf 246391246381246372508520241762417524633300246321246311246301241702416924629324168241672462832462510)))
 (.node 2 (.node 1 (.leaf 2465512510110246541002464925098224190246482509632464712464610002418512464112464025089250883)
 (.leaf 2421810242161002466610000000246581))
 (.node 1 (.leaf 251302512922423424686202423010024681124227102467810242232467624674300)
 (.leaf 247031000000024244124694124242246932246921024690124689251322246881))))
 (.node 4 (.node 2 (.node 1 (.leaf 2471925163224718102471612426424715224714124261247132000024257247082002514910)
 (.leaf 24284247352000002473112473025173225172124728124727251692247241002427024269247232516540))
 (.node 1 (.leaf 2475112475025194251933247491242972429620251891247451247441242912474320247411247401247391251822518120247361)
 (.leaf 247691243152476822476712476612476525208224764124763252062520530247612520425203302475725201252003247561247552519822519710251961)))
 (.node 2 (.node 1 (.leaf 2433012478324781224328124326247792002432410243221243212477522432024774252163243192521522431824772224317247712247701)
 (.leaf 24347243462479930243452434420243431243412479420247921243391024789124336124335124334243332243321243311))
 (.node 1 (.leaf 24813124366125252100000243511243501243492480120)
 (.leaf 2483312483225273252723248292527122527010248281248272526825267324826100002481910243722481720)))))
 (.node 8 (.node 4 (.node 2 (.node 1 (.leaf 25289100252871248451252852528422528312484224840252823248392528020252791248382483625278325277100248341)
 (.leaf 253051248641024862248602530230002529810248562529725296300248532529425293324852252922529132485110))
 (.node 1 (.leaf 2443324432248813244312443022442924879248772531842487612487512487425315200025313125311125309102530810253071)
 (.leaf 2444824895224894100024892102489012488912443912488712443824886224885124884124435248832248821)))
 (.node 2 (.node 1 (.leaf 24912102446224910225349124459244582490830249041002445524454224453249022490032445210244502489920)
 (.leaf 25370124928102492625367202447624475249242536542447424923224922124472249212491932491810002491625356200))
 (.node 1 (.leaf 2449524944224494249432249422538225381324491249392002449024938224937124487249362537732493512493412493312493212493110)
 (.leaf 24961124960124959124958249562002495512495425394224504249532539332495225392224951102494912494812494510))))
 (.node 4 (.node 2 (.node 1 (.leaf 24977124976125415124974125413124970254112249691249681254081025407254062249641000254031)
 (.leaf 25431100025428254272249861000249822542222498125421202497910))
 (.node 1 (.leaf 25005125004100002455125001249992544142499825440254393249971249961002499525436224994254342)
 (.leaf 2502425022202502010002456925458225017254572245682501622501512456625014225013124563250122545325452424562250112545132501025450254493)))
 (.node 2 (.node 1 (.leaf 245922504022503912503812503710025034125033250312547332503025472254713025028102502612502510)
 (.leaf 2505510000246041250511250502549022504712504610025484125042125041254832548230))
 (.node 1 (.leaf 24624246232025068125067102506510000250621002505912505825056254973)
 (.leaf 25087125528255272000246362463524634250844250811000250791250781025076124627246262507530))))))
 (.node 16 (.node 8 (.node 4 (.node 2 (.node 1 (.leaf 255421002509710250951250941255351246451246442509325091324643250902255312553020)
 (.leaf 24677251212246752511822511712511610002467024669202466810246671255511000))
 (.node 1 (.leaf 25135124691251342557632513310024687125572100246842468320255671246822512522468025124224679251232251221)
 (.leaf 25151255942251501247071251481251471251462558922470225145224701251442251431247002514222469925141255833246982514022469725139224696246952513830251361)))
 (.node 2 (.node 1 (.leaf 251672560925608325166100002471712515812515712515612471225155224711251542247102515322470925152255953)
 (.leaf 251832562622562525624202518012473710002473424733251772517542473210000251712561222517025168256113))
 (.node 1 (.leaf 25199256412256401002519510025192256362251911251901256311251881251871251861251851251841)
 (.leaf 2477325657202521412521312521225654225211125210256512252091256491252072564820256472564622520225645225644125643256422))))
 (.node 4 (.node 2 (.node 1 (.leaf 247882478722478610247852478420247821247802522320024778124777247762000)
 (.leaf 248001024798102479724796224795102479310247911247901))
 (.node 1 (.leaf 2481612481510000000)
 (.leaf 2527425709200252692570522570425703202526612526512526425701257003)))
 (.node 2 (.node 1 (.leaf 252952573025728300000025288257222025286100252812571720)
 (.leaf 257471253122531020257452574420253062574220253041025738125303253012573725736400000))
 (.node 1 (.leaf 248881002532610002532212488025321224878257542253172575222531610025749257482253141)
 (.leaf 249032534520249012534320024898124897248962533925337425336125335102489310002533110)))))
 (.node 8 (.node 4 (.node 2 (.node 1 (.leaf 249151249141249131253531024909253512024907253472249062490520253461)
 (.leaf 253751025373258082580732537212537112580412536912492725368202536610253641253631249201))
 (.node 1 (.leaf 253901249472538922538810000025380258162253791002537825376258123)
 (.leaf 25409258442584332584210025405125404102540225836225401125400125833125398100253952582920)))
 (.node 2 (.node 1 (.leaf 2542512542410000254192585322541825852225417125416102541225848225847125410100)
 (.leaf 25438100254371258711254351025433125432254302586732542910000254261))
 (.node 1 (.leaf 258891254541000025884125448125447100000)
 (.leaf 25907125029254702590632546912546825903225902102546510254631025021254612258951025019250182546030254561))))
 (.node 4 (.node 2 (.node 1 (.leaf 2548712592112504525485200025481125916125915125480125479102503625035254773254761254751254741)
 (.leaf 255031255021025500102549625932225495100025493102549125489259263254881))
 (.node 1 (.leaf 2551912507725518225517125516125074250732551532507225071255123002507025069255113002506612506425505225063255042)
 (.leaf 25534125092255332255322596820025529100255261250861025525125083250822552432508025523225522259572)))
 (.node 2 (.node 1 (.leaf 2555210000002554310000025539255372255361)
 (.leaf 251261002556512556412512025563225119255622556030255581251151002511410259861))
 (.node 1 (.leaf 25582260162025580125137125578125577100002513125574202512810251271)
 (.leaf 2559910002559712559612602812559226026225591260252602432559010255881260201255862601922558526018225584260172)))))))
 (.node 32 (.node 16 (.node 8 (.node 4 (.node 2 (.node 1 (.leaf 25617125174256162604832561526047225614260462256131256102604526043300256071251642560620251621002516125160251593256001)
 (.leaf 260652606422563010000002605712605612562312562212517925178256212605442562012517625619225618260512))
 (.node 1 (.leaf 260802607920026077102607626075226074125639125638260722260711025637256352606926068425634260672256331256321)
 (.leaf 25222125221125220125219125218125217100000000260831256501)))
 (.node 2 (.node 1 (.leaf 2523812523712523612523512523412523312523212523112523012522912522812522710252262522522522410)
 (.leaf 26124102525110000000256871252431025242252412252401252391))
 (.node 1 (.leaf 25712261392252762527522571025708261363261341000025702261302002569910025698261252)
 (.leaf 257271002529025726225725125724125723257212614932572012571912571810026144100257141))))
 (.node 4 (.node 2 (.node 1 (.leaf 25743102574126170261693002574026166225739261642025300257352616332529925734261622616142573312573226160226159261582025731257292615730)
 (.leaf 253252575922532425323200025320253192257531025751125750261782026176102574626173200))
 (.node 1 (.leaf 25341253402577632533825773225772125771100253341025333253322576830025330253292257641253282532720)
 (.leaf 253571257901253551253541025788125352257872253502578620257841253481257821257811025344257772253421)))
 (.node 2 (.node 1 (.leaf 2537425809262353026234262332258062623222580510002580110257991025362253612253601253591253581)
 (.leaf 25825102538725823258213253861253851253842538322581710002581525813202581126238225810100))
 (.node 1 (.leaf 258412626722584010258381258372626422626326262225835262612253992583422539726259225396258322583026258426256125828126255102582712539125826262533)
 (.leaf 25857262832258562628222585512585412628026279202627712627610258462627420025845100262691)))))
 (.node 8 (.node 4 (.node 2 (.node 1 (.leaf 2587212629826297225870125869125868258662629432586512586412586326291200025861125860125859262862628532542325858262843)
 (.leaf 2588710025886125885263122263111258831258821254462588126308325445254442544325880258782630726306263058254422587726304326303125875125874100))
 (.node 1 (.leaf 2546725901225466259002254641025897125462258962632330025459258932002589225890263173254551258881)
 (.leaf 259192634620002591712591426342200254782591322591226339225911102590926336225908125905263332263311)))
 (.node 2 (.node 1 (.leaf 25937125501259362259351254992593422549825933259312635926358525930125929125494259282025492125927125924263522259231026348125486259202)
 (.leaf 2595310259511255142595025948325513259472000255102550925508259454255071255061025939125938100))
 (.node 1 (.leaf 25969259672259662639420025965125964100025960125959263852259582638420255212552022595510)
 (.leaf 25978100000255382597425972302639812597126397225970263962))))
 (.node 4 (.node 2 (.node 1 (.leaf 25566100255612599420255591025557100255561000)
 (.leaf 2601512601412558126013225579260122260112643822601026437226009264362025575102557326007260053025571264312255701025569255682))
 (.node 1 (.leaf 2603112559812602910002602726454202602326451226022126021100000)
 (.leaf 2647510264731002604426042264703260411260401260391260381260372646422560525604260363256032560222560110260321)))
 (.node 2 (.node 1 (.leaf 26063125629256282606226060425627260592648632605810264841264832648220260552605320026052100)
 (.leaf 260812650822607826507265053000265021260732650126500326499102607026498202649612649526494226066100))
 (.node 1 (.leaf 2566312566226096225661125660125659125658260902025656126089265152256552608822608726513225653260862651232565226085226084260822265102650920)
 (.leaf 261111000000002567010256692566825667325666260992002566525664265233))))))
 (.node 16 (.node 8 (.node 4 (.node 2 (.node 1 (.leaf 2612912612810261261000265591000000265472654620)
 (.leaf 2571625715261432657942614212571326141226140102571126138265752657442613726135202570726133265713257062613226570300261312656820))
 (.node 1 (.leaf 26156102615410002615226588226151126150261482658632614712614626584200)
 (.leaf 261751261741000000002616726165226602100265992659820)))
 (.node 2 (.node 1 (.leaf 25765125763261912025762125761125760257582025757261832662032575625755226181126180126179266172000)
 (.leaf 25780126207262052257792577826204326203126202125775257742620132620010000257702576920257672619522576626194261923))
 (.node 1 (.leaf 25797125796125795125794125793257922257911262171257891262151002621210257851257831262101)
 (.leaf 26237266742002623610000258031025802262292262281258001257981))))
 (.node 4 (.node 2 (.node 1 (.leaf 26254266902026252125824126250125822262492025820258192258182624420002581426242262403)
 (.leaf 262732671026709326272126708126270267062026268102583926266226265267022670132670010266981266971262602669622625710))
 (.node 1 (.leaf 2628926726226288267242262871000262812672026719302671812627826717226716267152671430262752671322671212671110)
 (.leaf 26301125873263002002629910026296267332262951026293126292126728125862262902)))
 (.node 2 (.node 1 (.leaf 2631912631812589110002631526752226314126313100263101263091000)
 (.leaf 2591026337202633526772226334263322677032676926768225904263302263292676620026328263262258992589826325300263221258941263201))
 (.node 1 (.leaf 2635326351267902678942635012592226349226786100263452678220259181026341100263402633826775300)
 (.leaf 259401263662680320026365126364100263611026357126356126794100263541)))))
 (.node 8 (.node 4 (.node 2 (.node 1 (.leaf 25956263832682030259542638120259522637722637612594926375226374100259462637322594425943263723259421259411)
 (.leaf 25973102639910002639526393268303263922682922639110259631025962125961263882026386268232))
 (.node 1 (.leaf 2641410000000000025977100)
 (.leaf 2643226866226004126003260022600126430426427126000264262259991259981259972599626423326857125995125993264222264211259922642022641910)))
 (.node 2 (.node 1 (.leaf 264471002644410264421026440126439126872126871100026008260062643330)
 (.leaf 26463126035264622689732646112603412603326459226458126457126030264562000002645010264481))
 (.node 1 (.leaf 2648110026478126050264772260492647626474269094269081002647226906226471264692690432646810264662690122646510)
 (.leaf 26929100000002606110000000))))
 (.node 4 (.node 2 (.node 1 (.leaf 26511269442694330269421002650610269381265032693726936326935126934126933126497269322269301)
 (.leaf 26101126100102609826097265243002609510260942609326519326092126091265172265161000265141))
 (.node 1 (.leaf 26545269742265441265431000000000000261021)
 (.leaf 2656126996226560269952269941269932699220000000269801269781000)))
 (.node 2 (.node 1 (.leaf 2657727012270113265761265732701020002656927006202700510265671265661265651261272656422656312656226998269973)
 (.leaf 261551261531000026587265852702327022400026145265832658127017400000))
 (.node 1 (.leaf 2617112660627042226168266052704132660427040200266031000002659712659612659510)
 (.leaf 266231261862662222618526184266213026182126618100002617726615266133266121000261721))))))))
 (.node 64 (.node 32 (.node 16 (.node 8 (.node 4 (.node 2 (.node 1 (.leaf 2663810002619926198226197126196126631126193102663012662912662812619012618926188261873)
 (.leaf 26218266552026216266532002621426652266503262132664920026211266482262091262082664626644326206102664110))
 (.node 1 (.leaf 26671271072266701262312666922623026668202666612622726665226664126226262252666332622426223202622212622126220226219266562)
 (.leaf 2668927125271243266881266871026248266852262472668422624626245202624326679202624126677226239266762266751000)))
 (.node 2 (.node 1 (.leaf 26705271412267041267031000002669512669410000266912712720)
 (.leaf 267211271551027153271522002715110000027144102670710))
 (.node 1 (.leaf 2673527172271713267341000267321267311267301267291026727267252271611000267221)
 (.leaf 267531267501000002674612674526743271812718042674227179226741100263022673822717410))))
 (.node 4 (.node 2 (.node 1 (.leaf 27204272032026765126327267642267631267621263242676127198326760126759126321267582719532675727193202675510026316267542)
 (.leaf 26347267832272181263442678122634326780272173267791267781026776102677427210200267732720820267711272061))
 (.node 1 (.leaf 26801272362263632680022636226799226798272332263602679722679612679512635526792272302722927228526791127226102678812678710267851267841)
 (.leaf 26379263782681532681427251226813126812272492272481026811126810126371268092680732637026369268063026368263672026802100)))
 (.node 2 (.node 1 (.leaf 26833126832126831272672726632682810263901268271263891263872682520268211272561002638212638026818268163)
 (.leaf 264051264042640326840300264002683722683612683510272701268341))
 (.node 1 (.leaf 272931264292686422642826863200264252642426860300000268541026850100)
 (.leaf 2644626445268793268782730827307326877126876126441102687310002643510264342686920268672729620)))))
 (.node 8 (.node 4 (.node 2 (.node 1 (.leaf 26460102689210002645526890226453268872264522688620026449100268801)
 (.leaf 264792691322691227340226911126910100269071026905269032733332690212646710000268982689627327273264))
 (.node 1 (.leaf 2692812649326492269273264911264901264891264882648720026485269202026918102691612691512648026914273423)
 (.leaf 2694527374273733027371102694127369226940273682265042693922736610273652736422736312736227361226931273602000)))
 (.node 2 (.node 1 (.leaf 2652526959200002652212652126520269552695327383526518269522000273782737720269482737622694710)
 (.leaf 269752740420000026969126968100002696510273911265261))
 (.node 1 (.leaf 269911274191000000269811274091269791274071269771269761)
 (.leaf 265722700822700727436227435102700427434227003127002127001127000274292269992742827427300000))))
 (.node 4 (.node 2 (.node 1 (.leaf 2702012701927450226582270182274471265802701622701512657827014274453274441027013274412027009127440274392)
 (.leaf 2703912660112660027035200027033127032102659412659326592226591265902702827026426589270252270241))
 (.node 1 (.leaf 270571266192705620026616270512266141002704712661127046226610270452266092704422660826607270433000)
 (.leaf 2663626635270713270701266342706922663326632270682749940002706627496274953270651270621266272662627061326625266242270591000)))
 (.node 2 (.node 1 (.leaf 270861002708312664710266452708220270781266432664220270771266402663927076302663727072275023)
 (.leaf 271051266672710422710312710212710112710012709912666112666012665912665826657200000))
 (.node 1 (.leaf 266832668227117326681266802271151271141266782711322711212711110027110126673266722000)
 (.leaf 2713727567226699271362756632713510271311026693127128126692100271262755520026686271232271221))))))
 (.node 16 (.node 8 (.node 4 (.node 2 (.node 1 (.leaf 2714210275691271391271381)
 (.leaf 27166100027164127163127162271602759127590427159126723127157127156100027154275832))
 (.node 1 (.leaf 26748271852267472718422718327613227182127610127178102717612674026739271753026737271732267362760427603302717027601200)
 (.leaf 2719927630227629127197276272271962762620271941276241271921271911271902762122718927620227618127187100271861)))
 (.node 2 (.node 1 (.leaf 272152764622721427644226777100000272091276371272072720527636302763412676727202276323272011272001)
 (.leaf 27231127662127660127659127227276572276561272251027653102722327221227220127219100272161))
 (.node 1 (.leaf 27678127247127246127245126808102680527240226804127238100002723512723427232276633)
 (.leaf 2726327693227262126826272612272601268241268221272571002725412681926817272533000027250276792))))
 (.node 4 (.node 2 (.node 1 (.leaf 27273127272127271277012027699102726910272652769622726427695276943)
 (.leaf 27297127726126865272952272941026862272922268611277201268592728922685810026856272852268552728420277111))
 (.node 1 (.leaf 26882273112268812731022730910002730512687527304227303126874273022002730127731226870273002729830268681)
 (.leaf 27325277562268952732422689410268932732122732012689127319277502774942731812688927317226888273162774732731527746227314277452268852731322688426883273123)))
 (.node 2 (.node 1 (.leaf 2734527774227344127343277732277711273412777020273391273382776822733712733610273342733227764277634002733112690026899273303)
 (.leaf 269261269251269241269231269221269211273481269192734720026917273462))
 (.node 1 (.leaf 2694627375200273721000000277941277932779222779110)
 (.leaf 2695827387227386126957273852269562738427815278144269541000269512737922695026949200)))))
 (.node 8 (.node 4 (.node 2 (.node 1 (.leaf 27406100026973274022000026967126966127393278242782330)
 (.leaf 27425274232000274211000027416100027410100))
 (.node 1 (.leaf 27438278692002743710002743327863227432127431278612786032743010000)
 (.leaf 274551274542788522745327884227452278832274512788122702112744912744827880278793278781274462787727876302787512744327874227442100)))
 (.node 2 (.node 1 (.leaf 27472279022274711274701274692789927898327038270372746827897427036127464127034102746312703112703012702912745712702727456278863)
 (.leaf 270582748920274871270552705427486274844274831270532705227482300270502747922704927048202747612747512747412747310))
 (.node 1 (.leaf 27074270732750330000002749827928227067127926127064270632749330002706010)
 (.leaf 27090127089270882002708527515227084275142275131002751212708127080270792751140002750712707527506275043))))
 (.node 4 (.node 2 (.node 1 (.leaf 27106275362275351275341275331275321027530102709712709612709510270931270921270911)
 (.leaf 2755312755212712027551275492798127980279796271192754827978327118275472797732711610275441027542100027540279702796932710927108275393275381))
 (.node 1 (.leaf 2756812799610271342756522713327564227132275632275601027130271292275571002755610275541)
 (.leaf 2758410027150275792271492714827578300271472714627577327145127143275732000271401275701)))
 (.node 2 (.node 1 (.leaf 27169127168275992027167102716510275931275922802228021327589280202801932715827588227587280172002758628016280153)
 (.leaf 276161276151276141027612280422276112760928040327608128038127177276062803632760510027602100))
 (.node 1 (.leaf 276332763128063280622806150027628280592002805510276252762328054280534276222805222805110002761910)
 (.leaf 2764510276431272132764220272122721127640300000000)))))))
 (.node 32 (.node 16 (.node 8 (.node 4 (.node 2 (.node 1 (.leaf 27665127664128093128092127661127658280892280871280861276551276541272241276521276512808222765028081227649280802807930)
 (.leaf 27680128109102767710027244272432767432724227241276733027239102723727667200280951))
 (.node 1 (.leaf 27692281232812232769128121227690127259276892811930027258102725527684202725212768310)
 (.leaf 27268276982)))
 (.node 2 (.node 1 (.leaf 281541277271002772428150227723127291277222272902772120272882728722728627718200277151277141)
 (.leaf 27743127742127741281682277401277391277381277372816428163327306277362277352816222773428161227733127732100027299277302))
 (.node 1 (.leaf 27759127758127328277572002775412775312732327752227322277512281761027748281752028173281722027744281712)
 (.leaf 277721002776910277671273352776622776528190200277601))))
 (.node 4 (.node 2 (.node 1 (.leaf 27359127358273572778830273562735522735427353277833273522778222735127781227350277802820732734927779282062820542777828204200)
 (.leaf 278081000282291278031278021273702780128227327800127367277992277961277951000))
 (.node 1 (.leaf 27822127392100002781610000273822781122738127810227380278092282351)
 (.leaf 2740810027405127403100000000278251282501)))
 (.node 2 (.node 1 (.leaf 27857127426127855127424278542274221027420278512274182785020274171000000)
 (.leaf 27873127872282912278712828922787027868200027866100027862282812828030282781278591278581))
 (.node 1 (.leaf 274582788720000278821002829910282961002829310282921)
 (.leaf 2790310279012831922790028318200274672746627465327896100278911274622746127890327460274592788932788828308283073)))))
 (.node 8 (.node 4 (.node 2 (.node 1 (.leaf 27491274902027488102748527915202791310027481274802002747827477200279041)
 (.leaf 27937127505279362793430279321027501279302275001000274972792720274942792520274922792120))
 (.node 1 (.leaf 275221275211275202751922751810275162794620027943100279421279411275102750927940327508279392279381)
 (.leaf 2796812753727967227966102796412796312753127962200275281275271275261275251275241275231)))
 (.node 2 (.node 1 (.leaf 27985127984284032284021279822840128400300002754627545279753279741027543127541279712000)
 (.leaf 2799710027994127562279932275612799222799112755927558227987100279861))
 (.node 1 (.leaf 27585128014127582127581275802801030002800810275762757527574280044002757227571280013280001)
 (.leaf 280321276001280301280292844822759827597280283275962802728445327595280262844432759428025228024284432844232802312844012843912801828437200))))
 (.node 4 (.node 2 (.node 1 (.leaf 276172804822804728466228464128045128044284632280431284601280412803920276072803728458284574028035128034100)
 (.leaf 27635284832280641028060284802284791280582847828477328057128056284762284741028473100000))
 (.node 1 (.leaf 2849912807828498227648276472807728497428076128495284942000002764128071227639127638280692280681280671280661)
 (.leaf 276661002809410285111280911280902808828509285084285071028085128084285032280831000)))
 (.node 2 (.node 1 (.leaf 2811112768227681200028108102767628106227675281052281041276722810322767127670281003027669276682809832809710)
 (.leaf 2812912769728128228127285462281262854528544328125285432281242854120281201028118285382276882768728117285374281161276862811522768512811310))
 (.node 1 (.leaf 2771727716281443281411002814012813728559200277101002770210277002813120)
 (.leaf 2815928580285793281581000277292772828156328155285752857430281531281521277252815120281491028147127719281462))))))
 (.node 16 (.node 8 (.node 4 (.node 2 (.node 1 (.leaf 2817728596285953281741285941002817012816910281672858822816612816510285842858320028160285812)
 (.leaf 281921281912818928611286104277621027761128185128184100281832818122775528180228179128178100))
 (.node 1 (.leaf 2862710286261286251277772820328624327776282022862328622427775282012286201002819912819612819512819412819310)
 (.leaf 2779710002821910000277902821622778928215227787282142821228632427786282112863132778527784282102863042820928629228208286282)))
 (.node 2 (.node 1 (.leaf 278131278122823722823610002780712780628233202780528231227804282302002864612779828226282243)
 (.leaf 28672128251100028247127821278202824632824512781928665286643028244100))
 (.node 1 (.leaf 2827328692227853278522827232827128691228270128269100000000000)
 (.leaf 28287128708287072278672870522828612828512786527864282823000028279286992286971282771282762869622785628275228274286942))))
 (.node 4 (.node 2 (.node 1 (.leaf 283021283011283001028298128297102829512829412871310287121002829028288287103)
 (.leaf 28321287402283201028738128317100278952789427893283124027892283102000283061283051283041))
 (.node 1 (.leaf 279172791620279141002791227911283303279102832920279092790828327327907127906127905128323100283221)
 (.leaf 283531283522877222793110279291000283451279241279232834322792228342228341127920127919283392279181)))
 (.node 2 (.node 1 (.leaf 27948127947283662027945127944128362100283612878022836012835928779228358287782283571283562877522835512793527933283543)
 (.leaf 2796512838412838310283811279612838022796027959227958127957127956127955127954127953127952127951279502279491))
 (.node 1 (.leaf 2839510283931002797327972283922839040002838810283861)
 (.leaf 27998102799528415228414128413128412128411128410127990279892840932798812840712840612840512840410288161)))))
 (.node 8 (.node 4 (.node 2 (.node 1 (.leaf 280131280122801128430300280091028427128007280062280051002800328002202799928418200)
 (.leaf 284491284462886320000002844110000000))
 (.node 1 (.leaf 28046284652002846228876202887512845912845612887110002803328453228452128031284512284501)
 (.leaf 284811028894288932028475100000028470128050280492846930284671288801)))
 (.node 2 (.node 1 (.leaf 280752807428493328073289072284911280721284891280701000028065284852284841288971284821)
 (.leaf 2851312851228926202851028925228923128506289222285052892128920328504102850212850112850010000))
 (.node 1 (.leaf 2811010028107285262028524128523128522128102281012852132809928518228517102851512809628514200)
 (.leaf 285422854028956328539128954102853628951228535289502285342894922811428533289483002811228530200))))
 (.node 4 (.node 2 (.node 1 (.leaf 2855812855712813610000281302854922854810000)
 (.leaf 2815728577289913285762899020028573128572102898412856912814828568289833028564128145281432281422856222856110))
 (.node 1 (.leaf 2858712858629001200000285821289961028993128578289922)
 (.leaf 28187102818610286051286041281822860328601328600128599128598128597102901110285932900922859229008290073)))
 (.node 2 (.node 1 (.leaf 290391028621290372028619128200286182281981281971286171000002860929025290243281881)
 (.leaf 28220100282182821720028213286352863329048400000000290401))
 (.node 1 (.leaf 286551002823412823212865010028228102864712822510282232822222822110)
 (.leaf 28252286712286701028249128248286692866732866629082200290792907820286631286602907722824128659290763282402823929074328238286572286561)))))))))
 (.node 128 (.node 64 (.node 32 (.node 16 (.node 8 (.node 4 (.node 2 (.node 1 (.leaf 2867310)
 (.leaf 282842828322870310287012911329112328700291112291101286981029108128695286932910729106400000))
 (.node 1 (.leaf 287191287181002871712871410028711100028709128706100)
 (.leaf 287372914922831628315287363283142873522831328734287323028311128729128309287282914132872712872610287241283031287221287211287201)))
 (.node 2 (.node 1 (.leaf 2833228751228331102832812874710283262832528745328324100287431287421287391000)
 (.leaf 2834712834610028344100283401287601283382875922875812833728336228335283342283332875320))
 (.node 1 (.leaf 2836312878210028781100291862918522877729184228776102877412877312918012877110)
 (.leaf 28385128799128798128382287972287961283792879522837312837212837128370287903283691283681283672878720283651283641))))
 (.node 4 (.node 2 (.node 1 (.leaf 28815128399283982881432881312839728396288123028394100028391288042028389128387288032288021)
 (.leaf 2841712841628832228831102882912882812882710288251284082882420028821128820102881829223292223))
 (.node 1 (.leaf 2843310284322843128847328846128429288452924932884429248228428288432924732884229246228426288412924532842528424288402924442842328839228422284212883832842012841912883310)
 (.leaf 2886529270228864288622288611002885810002885610284381028436128435292552284342885028848292534)))
 (.node 2 (.node 1 (.leaf 288811000288771028873292792288721002845528454200000)
 (.leaf 2889212889112889010002888812847228471288872888540002846828883228882292862))
 (.node 1 (.leaf 2849612890912890810284922890622849028905200284882848722848628901200000)
 (.leaf 2892710293302932929328302932712932612891929325293243289181289172932322891610289142932022931910)))))
 (.node 8 (.node 4 (.node 2 (.node 1 (.leaf 289451285292894422852828943228527289422285252894128939300289381289371285202851928936289344289331289321289311285161289291289281)
 (.leaf 289611289601289591289581289572895529361329360128953128952293582293571000289471285322853129352300))
 (.node 1 (.leaf 285602897522897429376228973128972100028966100002854728963228962293662)
 (.leaf 2939312939212898929391228988293902285712898722857028986228985293882938730028567289822898032856628565289793289781285632897720)))
 (.node 2 (.node 1 (.leaf 2941229411228591290062941029409429005294082285902858929004329003294072940632900229405202900012858528999228998100289972939929398328994100)
 (.leaf 29023128608128607286062002902012901912860229018290163290151290141290131002901029414200))
 (.node 1 (.leaf 29036129035100028616286152902932861428613290283028612129027129026294282)
 (.leaf 2864112864029056228639290552290541286382863729053290514286362905022863410290471000002904110))))
 (.node 4 (.node 2 (.node 1 (.leaf 29475100286541028653286522865129066400286491286482906222906112864529060200286442864329059328642290582)
 (.leaf 2908810029083128668102908010002948010029075290732286582907229477294764))
 (.node 1 (.leaf 291041286902910320000000000000)
 (.leaf 29120129119129118129117128704128702129515102951429513295123291091029511102950810)))
 (.node 2 (.node 1 (.leaf 28723129134129133295352291321029130100028716287152000000)
 (.leaf 2874129153291513002915012955112914812914712873329146291443028731128730291432291401029138128725291372291361))
 (.node 1 (.leaf 287521028750102874912874812874629158229157102874410291551291541)
 (.leaf 2918329581229580102918212918112957712917929576229178100287631287621287611000))))))
 (.node 16 (.node 8 (.node 4 (.node 2 (.node 1 (.leaf 292011292001287891287881028786128785128784128783291912291901291891002918812918710)
 (.leaf 29217296142288112881029216328809128808128807128806100000288012880029206329205296032960232920412920329601229202296002))
 (.node 1 (.leaf 288262923222923112923012922912882328822202922612881910000000)
 (.leaf 2964712964629645202964412964312964212924312883728836292423288352883422923810029237129236296342288302923520)))
 (.node 2 (.node 1 (.leaf 29263128857292622292611002885528854292602965742885329259229258128852288512925729655296545292541296521029650129252129251129250296482)
 (.leaf 288701292751288692886829274329273128867288662927232927110292691292681028860288592))
 (.node 1 (.leaf 2888929295200288862929020028884292872000292852968322887928878292842928229681529281296802292801)
 (.leaf 289042930820028900293052028899128898102889612889512929812929710))))
 (.node 4 (.node 2 (.node 1 (.leaf 297221029322297212293212972020002891312891229318293163289111000)
 (.leaf 2934312934212893529341293393293381002893029335229334129333100000))
 (.node 1 (.leaf 293592975820029356100029354297522289462935329351297504297491000002894029346293443)
 (.leaf 29377297732029375100000293671000002936310)))
 (.node 2 (.node 1 (.leaf 2978612938929785229386129784297832029385128981293842978032938312938229779229381297782293802977622897629379229378297752)
 (.leaf 29804298032294041294032980122940229799229401297982294002979720297962979522899529397229396297942979332939512939429792200))
 (.node 1 (.leaf 29021294232002901729422294203294191294181294171294161290122941520294132981020029808298072029806298052)
 (.leaf 2903829441200029034290332943729435429032129031129030294322294311000294291029427129022294262)))))
 (.node 8 (.node 4 (.node 2 (.node 1 (.leaf 290522945422945312904929452298502984942945112945029848229449298472984632904612904512904429043229445129042294442002944310)
 (.leaf 29069294712290682986829867329067294692029065290642946732906329466229465129464100294631294621294611290572946029857300))
 (.node 1 (.leaf 290852908420002908129483202948110000294782987522987312907129474298723294732987122907029472298693)
 (.leaf 29505100000000000294911002908729086294883)))
 (.node 2 (.node 1 (.leaf 2952029916229116129115295182291142951722991110299091000295101295091291051295071295061)
 (.leaf 2913112953112912912912812912712912612912510291242912322912229121202952110))
 (.node 1 (.leaf 2955312955212994612955010291452954622954510291422954322954212954112913910295381291351295361)
 (.leaf 291642916320291621291611295611291602915929560300291561295581295571295561029152295542))))
 (.node 4 (.node 2 (.node 1 (.leaf 29583129983102958229981229579100295781029976129575299752295741002957110)
 (.leaf 29599102959710291961291951291941291931291921295881295871029585129584299842))
 (.node 1 (.leaf 292182961722961612961510292152921422921312921212921112921010292092920829607300054292072960620000)
 (.leaf 2963312923429233296323000296281296271292282922729626302922529224296242962240029621129620129221292202961930018429219296182)))
 (.node 2 (.node 1 (.leaf 29649130047103004510003004112964112964012924129240292392963929637300386296361002963510)
 (.leaf 2926729266296653292652966422926429663296613006042966010296581000296563005420029653130051129651300502300491))
 (.node 1 (.leaf 296771292782967630075329277292762967529673300743007330072729672100296711296701296691296681296671296661)
 (.leaf 2929612929412929312929229291296913296902968830087329289296872292882968620296841000296821)))))))
 (.node 32 (.node 16 (.node 8 (.node 4 (.node 2 (.node 1 (.leaf 293142931322931229709229311129310293092970730029307297042297031029304297012029302296992293011296971292991)
 (.leaf 297293012822972829726301273012630125500000000297193011820297172971530114300293151))
 (.node 1 (.leaf 29345297433014432974213014130140200297381293402973730136329736102933729336297343297331029731130129129332129331297302)
 (.leaf 2976112936229760301583297592975722975630156229755129754301532002935529753202975130150301493297481293502974730147301464293492974622934829745229347297442)))
 (.node 2 (.node 1 (.leaf 297773017620029774297723017230000000000293652976322936429762301613)
 (.leaf 301923019122979112979030189229789129788301872297871301851029782100003017810))
 (.node 1 (.leaf 30208130207302062030205102980213020212980030200200030198103019510301931)
 (.leaf 29425294242982332982010029421298192981732981612981512981412981312981212981110298093020920))))
 (.node 4 (.node 2 (.node 1 (.leaf 29442100294402943929837329438102943629834229434298312294332983030230329829100294302982622982510)
 (.leaf 29459294582985632945712945629455229851100000298453024522944829447298443298433024322944629842200))
 (.node 1 (.leaf 302721298701302703026920029470298663026732946829865302653298641298631298621002986112986012985912985830258302573)
 (.leaf 294902948922948712948629883200294852948429882298804029482298782000294792987423027410)))
 (.node 2 (.node 1 (.leaf 299041030300302992000002989412989310029892100)
 (.leaf 29523299193031830317429522299182299173031620002951929915303123299141295161299101030308102990812990710))
 (.node 1 (.leaf 299351295402993430332329539299332295372993220000029530299262295291299243032222952829527299233299223032130320329526295252992132952429920303193)
 (.leaf 29555100000299451295492994422954829547299413299401295441299381299373033630335329936303342)))))
 (.node 8 (.node 4 (.node 2 (.node 1 (.leaf 2996610029965100299601295652995922956429958229563299573035632956229956229955129559100)
 (.leaf 2998230377200303741299801299791299783037220030369129974303682299731000))
 (.node 1 (.leaf 3000113000030396303953299993039422999830393229598299972299961303901303891295911295901295892998922998812998712958629986200)
 (.leaf 300171300161300151300141300133040922961330012304083296122961129610300113000930407304063040582960930008229608300072300061000300041296043000330399303984300021)))
 (.node 2 (.node 1 (.leaf 296312963022962930029200300263042230421329625300253042033002413002310300211300203041623001910)
 (.leaf 3004813044330442304413300461030044304402300431300421304371300403043623003930037304343043343003610000))
 (.node 1 (.leaf 3006513006413006330459304583300621300613005930457304564029659100000304471000)
 (.leaf 3008012967930079202967830077230076100000000300671300661))))
 (.node 4 (.node 2 (.node 1 (.leaf 2969629695300963304901296941296933009322969210300903008820030085100000)
 (.leaf 2971429713301133297123011222971129710301113010940301071301061029706129705301032030101130100100300971296981))
 (.node 1 (.leaf 305231305221297253012423052112972429723301223051930518530121130120130119100030117130116100)
 (.leaf 30540305392301431301421297413013922974029739301383053630535530137305342305333053223013512973530134230133102973230131230130100)))
 (.node 2 (.node 1 (.leaf 301591305531301573015530552330154130550130152130151130547103014830545200301451305421)
 (.leaf 301773017530571300301741301733056720000000297641301621030160305562))
 (.node 1 (.leaf 30190305863058530301881000301841301833057923018210029781301813057633018013017910)
 (.leaf 3060230601230204100302033020130598305964305951301991030593103019713019610301941))))))
 (.node 16 (.node 8 (.node 4 (.node 2 (.node 1 (.leaf 29824102982229821302233022143022010029818130218302162302151302143060923021310302111302103060523060410)
 (.leaf 298402983929838302384002983630237229835302362029833302323062732983230231230626306252302291029828302272298273022630621300))
 (.node 1 (.leaf 30256129855298542985332985230252203025013024910003024713024630244306403063940302423063720298411)
 (.leaf 302733027130668306673066650030268306642306633066220000030261306562030655130260130259306543065330)))
 (.node 2 (.node 1 (.leaf 29884130283100298811029879302782029877130277129876100)
 (.leaf 303051299061299053030323030212990329902303013306921306911000000000))
 (.node 1 (.leaf 30708130315100030313102991329912303113000303071303061)
 (.leaf 3072630725203072410303333033123072210000030324307162299253032323071513071410))))
 (.node 4 (.node 2 (.node 1 (.leaf 2995429953303513029952299512029950102994929948229947303442303431303423073323034130732229943303402299423033930730330338130337307282299391)
 (.leaf 30357103035513035430746307453303531303521))
 (.node 1 (.leaf 30383130382130381130380129985303793076133037810303761030758307572303753075623075513037313075430753229977303712303701)
 (.leaf 30401130400103078113039730780307793077843077713077613039213077510303911000029990303842)))
 (.node 2 (.node 1 (.leaf 30417103041513041413041313041213041113041030793230792130791307902307891304043078830787330403130402100)
 (.leaf 300353043223043130814230034304303081333003330429308123300323042830811330031304273081033003030426230425308072300283002730424308064304233080523080410030419130418308012))
 (.node 1 (.leaf 30446100030444103082510308221304391304383082023081913081813043510)
 (.leaf 3006830464230846308452304623084423046113046030843308423030841308402308391308381300583045523005730454308363300563045323005530452304503083443044930833230053300522)))))
 (.node 8 (.node 4 (.node 2 (.node 1 (.leaf 3048113008430480230083300823008130479304775000304751003047230854308533030470130852130071308512300703046730850308494300691)
 (.leaf 3009913009830495230494304923087630875430491100003048613048510003048310))
 (.node 1 (.leaf 30511130510130509103050713050410030501103049910304971304961)
 (.leaf 30525100003090413090313052013051730901230516308992305151000)))
 (.node 2 (.node 1 (.leaf 30543130925103092413054130923203092113053830920309193305371000305311305301305291301321)
 (.leaf 30561103055710003055530936230554309352003055130549309333305481030546130929130544309272))
 (.node 1 (.leaf 305741305731305723095820305701305691305683095520305661000309431)
 (.leaf 305901000305841003058313018630582230581309672305803057830965300))))
 (.node 4 (.node 2 (.node 1 (.leaf 302123060723060610030603130989103060030988200305993059730986309853098450030594100)
 (.leaf 3022830623200030225302243061930030222306162003061313021930217306123306111306101030608309952))
 (.node 1 (.leaf 306413102731026330638103063631024230241302403063530302391003063213062913023530234302333062840003062431013310123)
 (.leaf 30652130651130255302543025330650306485306471302513064631034310334000030248306432306421)))
 (.node 2 (.node 1 (.leaf 30671130276130275130670103105410030665103066113026631047203026430658230263306572302621)
 (.leaf 3028913068110000302821302811302801302791306721))
 (.node 1 (.leaf 3031030309307033070140030700103069813069713030430696310853108443069531083230694310822306931000)
 (.leaf 307211000000000003070710030314307042))))))))
 (.node 64 (.node 32 (.node 16 (.node 8 (.node 4 (.node 2 (.node 1 (.leaf 30345307343112230030731311202030729103111610307273111420003072310)
 (.leaf 3075210000030744311332307433113223074231131230741311302303501303491030348303472303461))
 (.node 1 (.leaf 3076613076513076413076313076210307601307591311421031141311402031139100)
 (.leaf 311623116123116010030774130773100000)))
 (.node 2 (.node 1 (.leaf 31183311822308001307993118123079831180230797311792307963117823079531177230794311762311751311743117323117213117113117013078631169311683307851307841)
 (.leaf 308171308163119823081513119613119510003080931191311903311891000030803130802311842))
 (.node 1 (.leaf 3044510000030823308213120531203400000)
 (.leaf 31230130848312292308473122820312261312251312243122323122213122110308373122020003083510))))
 (.node 4 (.node 2 (.node 1 (.leaf 3048230865200003047610030474304733085530000031233312322312311)
 (.leaf 3126231261230878100308773125820003048930871230488304872000000))
 (.node 1 (.leaf 30514305133089731278400030891100308901000308841308831308821030880312632)
 (.leaf 30528309112305273091023090931291230526103052410309061000309023090031283312824000308981)))
 (.node 2 (.node 1 (.leaf 3092830926313083000003092231304313033313021309183130120000309131309121)
 (.leaf 3094410030939100309381309373131823093431317203093231316203131331312200))
 (.node 1 (.leaf 3095710030956103095431335230953100003132710313261)
 (.leaf 30589309773097533058830974230587309732000030970313502309691309683096631349313484313471309641305773096331345303057510)))))
 (.node 8 (.node 4 (.node 2 (.node 1 (.leaf 309901313701030987313692313681003098331365200003059230980203059130978313593)
 (.leaf 30620103061830617310043003061530614310033100143100013099913099831380230997130996313782313773137623099431375200))
 (.node 1 (.leaf 3063430633310203003063130630310193101743101613101510003101110306223100920)
 (.leaf 310381306493103731035300314141306453103120306441031029131028314083140733102510)))
 (.node 2 (.node 1 (.leaf 306693105520310531000310511310501310491306603065931048310463142931428631045314272310443142623104331425231042314243142333104110)
 (.leaf 3068010030675130674306732310591000))
 (.node 1 (.leaf 30699131087131086131463100314611310811310803145931458300000314461)
 (.leaf 311031311021307133110120003109510307061307053109423109313070231092200))))
 (.node 4 (.node 2 (.node 1 (.leaf 3112131119231118314932311173149220311153149123148910314881000311101003110510)
 (.leaf 31137131134100003112913074031128315033307393112723073831126315013311253150023073731124314983307363112323073510314951))
 (.node 1 (.leaf 311513152523115013152313114813114713114613114531519315183311443151723114331516200315153151420000)
 (.leaf 31167315412003078330782311643153743116331536200315351003115713115610030772311552307711)))
 (.node 2 (.node 1 (.leaf 3118531558315573315561315551315541031553315522031551131550131549131548131547315462315451315441315431315421)
 (.leaf 312001311993157231571303119731569200311943156731566331193315653156433119210000031186315592))
 (.node 1 (.leaf 31217131216315882312151308323083131214330830312132312123158423082930828312113308273121031582330826312092312083158023082431207315793312063120431578331577131202315763157533120110)
 (.leaf 315981315971315961031595315942000312191312181))))))
 (.node 16 (.node 8 (.node 4 (.node 2 (.node 1 (.leaf 308661031247312453162031619430863103086231244230861312432308603085931242312403161531613630858308573123930031238131237312352000)
 (.leaf 31260100308743125731255330873103125413087031253230869312522308683125123086731250312483))
 (.node 1 (.leaf 3089531276230894130893312742312731031271131644103088830887308863127031268316423164173088513126610312641)
 (.leaf 31295316682312943166723129313129210309083129023090731289203128713090531286200031284100)))
 (.node 2 (.node 1 (.leaf 3093031311203130910313071316801031306316782313051031676316752316741316731309173130023091613091530914312963)
 (.leaf 31325131324316992031320100313191000309313131520))
 (.node 1 (.leaf 3096231343317193309611003096030959313413133940003133713133631710203133410000)
 (.leaf 3097931361231360317352030976313583173330003097231352203097113135113172531724203134613172110))))
 (.node 4 (.node 2 (.node 1 (.leaf 3175013137413099330992313733174943099131372231371317472000313671003136631364317413174043136313098230981200)
 (.leaf 3101010031008131007131006131005103138313100213138110313791000))
 (.node 1 (.leaf 3140931783317823314061003102310310223102123140213140113101831398200310141000)
 (.leaf 3142231798203104031039203142010310363141820031415314133178933103210031030131410317852)))
 (.node 2 (.node 1 (.leaf 3143910310583105723105610031052314353143330003143113143031804231803103180110)
 (.leaf 31449131820100031444100))
 (.node 1 (.leaf 31091131090103108931088314663314651031838131464314623183733183510031460100)
 (.leaf 31113311122314871311111031482100311041000314771000)))))
 (.node 8 (.node 4 (.node 2 (.node 1 (.leaf 31504315023187130318691314991318671003149713149631494318653031863103186010314901)
 (.leaf 31885131520100000000311381003150613150510))
 (.node 1 (.leaf 31159311583153331531318985000031154315282031524131889131149315222315213188720)
 (.leaf 319181319171003191410319133191223191113191013190913190813154031907319063031166311653153831905400)))
 (.node 2 (.node 1 (.leaf 3156831933231932100031563103118831187315613192743156031926231925319242319231319223192120319201319191)
 (.leaf 31583315813194830000000031574319403193933157331938231570319372319363193520))
 (.node 1 (.leaf 31227315992000000031593131592131591131590131589315872315863195331952300)
 (.leaf 316163161431982319814031612100000000031602100))))
 (.node 4 (.node 2 (.node 1 (.leaf 316281003162731625200031621100000)
 (.leaf 316483164632013331645100031643100312653164031638320063200553163710000316341))
 (.node 1 (.leaf 3166332029231662131288316612316603202623165932025231658132024131285316562003165513128131280312793165443201813201713201610)
 (.leaf 3168131679203167713204432043200032040103129931298312973167043166910031666131665320312316641)))
 (.node 2 (.node 1 (.leaf 31689131314316862000313103168431682300)
 (.leaf 320721317093207120000313281000317001313231316981))
 (.node 1 (.leaf 31354313533172932090431728320892317271317263208832087300317233208423172232083232082100320791000317141)
 (.leaf 31743131742321053210430031739100313623173831736300031734103135731356317323317313209223135531730320913)))))))
 (.node 32 (.node 16 (.node 8 (.node 4 (.node 2 (.node 1 (.leaf 3138431759231758131382317572317561317551317541317531317521317513211432113300000317451317441)
 (.leaf 3177413140031399317733313971031396313952313941031393313923176730313911317661313903138931388317634313873176223138631761231385317602))
 (.node 1 (.leaf 31417314162000031788321502314123141131787331786132147131784321453214433178110031405314042314033177920)
 (.leaf 314323217020000318021031800132162103179931797321603314213179632159321584000314191)))
 (.node 2 (.node 1 (.leaf 318221031445103181810318141318131314383217520314373143631812303143431810318083)
 (.leaf 3183910000000318331003182832191321903318271000))
 (.node 1 (.leaf 318511003148131480203147931478200000318401)
 (.leaf 31868103186410031861100000))))
 (.node 4 (.node 2 (.node 1 (.leaf 32251131886103188410031883100031513318792031875100318721)
 (.leaf 315341032262131899318973226130031530318962315291003189010318883225432253322524))
 (.node 1 (.leaf 3228210000032276132275132274100322721000)
 (.leaf 3229832297231934322962319313229520031930131929131562132290322892322883228720322863228523228410)))
 (.node 2 (.node 1 (.leaf 319511315853195023194932313200031947100003194232305323043319411000)
 (.leaf 319693196732331331601316003196633196513196410031963103196113196013195931957231956100319551319541))
 (.node 1 (.leaf 316183198332347331617323462323451000031978131611316103197733160931976231608319753233733160732336231606319733197132335431605323342316041316033197032333323324)
 (.leaf 3199913199813163231631203199731995200000031624316233162230319861319851319841)))))
 (.node 8 (.node 4 (.node 2 (.node 1 (.leaf 32379131649320143237832377403237613201132375232010103200832372323713003200732369200031636316353200130)
 (.leaf 3203013239313202832392323913320271000003202313202213238313238210323801))
 (.node 1 (.leaf 32047103240913204613204532407232042132041324052324031003203913167231671200320331320321)
 (.leaf 320641000003169113169010000031685320492316833204832412324114)))
 (.node 2 (.node 1 (.leaf 3171832081200003171331712320763320751031711320732000032066131702320652317011)
 (.leaf 32097324492320961000003244210032440132086324382320851000))
 (.node 1 (.leaf 32111131748132109131746321083246232461432107103245913210632458232103132102100003173710)
 (.leaf 317651317641003212213212113212010321181032116132115100321121))))
 (.node 4 (.node 2 (.node 1 (.leaf 3214332497324963031780103177832141321393317771317763177532137303213513177213177113213213177010317693176820)
 (.leaf 321571317953215632510331794321553250932508403179313179231791321543317903215332151300032149132148132499132146324982))
 (.node 1 (.leaf 3181132174203180910031807318062318053216823216713216413251710321631325151)
 (.leaf 3182910003182632189231825103182431823321863218443218310318211318193218223218113218010321761)))
 (.node 2 (.node 1 (.leaf 32205100322021322011003183610003183410318323183131830321924)
 (.leaf 318621322233257123222213185931858200032564132214100318503184932213303184810))
 (.node 1 (.leaf 322361031874318732032234322322322311318703223032580332229325792003186610322261)
 (.leaf 322551000000000031882322462318813224523188032244200))))))
 (.node 16 (.node 8 (.node 4 (.node 2 (.node 1 (.leaf 322731032271132270132269131904322662319033190232265326204319013226432619326184319003226320326161326151000322581)
 (.leaf 32642326412032640326392000000031916319153227932277326333263260000326281))
 (.node 1 (.leaf 3230313230210323001322991000000032293131928322922322911326431)
 (.leaf 323123231020031946319453230933194432308231943323072323061)))
 (.node 2 (.node 1 (.leaf 32688132687103232913232810323261323251319623232423232313232213195810)
 (.leaf 319883235023198732349232348132701100003198032344232343131979323422323411323403233832694326934326923269120))
 (.node 1 (.leaf 32722132721132004320033236733200232366323643272032719503200032362200032360132359131994132357131993319923235633199132708231990323522)
 (.leaf 327381032381100032732132731103273032729232373327283272730000323681))))
 (.node 4 (.node 2 (.node 1 (.leaf 320383203732401332036320353240033203413239610323941000323903274523238932743232388100323851323841)
 (.leaf 32050100324103276523276410032408324063276230324041000324021))
 (.node 1 (.leaf 3207832077203243010320741324271324261032424327722000000)
 (.leaf 320951320943244823209310003244110032787132439100324363278323243310)))
 (.node 2 (.node 1 (.leaf 32110324632003246013280810324573280620032101324562328021324541321003209932098332450327993279830327971)
 (.leaf 3212813212732126232125324772321243212323247532823203247313211913247113211732470232469132468100324651324641))
 (.node 1 (.leaf 3214210321403249323213832490232136132488132134324872321331324851321311321303248323212932482200)
 (.leaf 325073285623250632855328543325053285323215232504232852100032501132500100)))))
 (.node 8 (.node 4 (.node 2 (.node 1 (.leaf 321731321721321713252323287110321691032166321653251830000032161325142)
 (.leaf 3254513254432892232543328912321883218732542328903288950321853254032888332539100003253410000))
 (.node 1 (.leaf 32212322112000000322001321993219832553332197325502321961321953254832896332194321933254732895400325461)
 (.leaf 3257613222532224325733325721032921103222132220325703032913132565100000)))
 (.node 2 (.node 1 (.leaf 329441325861003223532583232233325822325811000032228322272)
 (.leaf 326051322501032249326022322483224732601332600132599329642003259832961232952132951100))
 (.node 1 (.leaf 326251326241326231322683226732622329853298450032617100032260326132322593261220326101326093297320)
 (.leaf 3228332638326363032281132280326353299733263410032631132630132629329922329913299023262732989232626329882))))
 (.node 4 (.node 2 (.node 1 (.leaf 3230132656232655330172326541326531326501003264913229432648232647100330063300523300410)
 (.leaf 3231832671232317326702323163231532669332314100326651323113266423266310032662103266013265710))
 (.node 1 (.leaf 32686326842323301032683132327326822326811326801326793267723267613267513232132674232320326732323191)
 (.leaf 3270333067232702103270013269910032698132697132696132695100000)))
 (.node 2 (.node 1 (.leaf 3236110003271010330721327073307133070332706330692032704330682)
 (.leaf 32737100000330933309220032726330902000000))
 (.node 1 (.leaf 323993239832397300323953274823274733110200327443310720003238732740232386103273910)
 (.leaf 33124132761331232032759100327561327551327541))))))))))))
 (.node 1024 (.node 512 (.node 256 (.node 128 (.node 64 (.node 32 (.node 16 (.node 8 (.node 4 (.node 2 (.node 1 (.leaf 32785103243533145200032779132778132777331402000324253277333136333135100)
 (.leaf 3245332452324513280140033161133160132447327963315933158432446327953279333157432445327922324443279123244332790200000324371))
 (.node 1 (.leaf 328151324673246632814331774328131328121328111328101003317110328073317020328051000)
 (.leaf 3283110032481132480324793282733247832826232825132476328242331861324743282223282113247232820200328171328161)))
 (.node 2 (.node 1 (.leaf 328471328461328453320723249532844232494328433320533284210324921324913283923248932838232835132486132833132484328322)
 (.leaf 3286313322510328621325133251232511328614000000332161328511325033285033214332849132502332132))
 (.node 1 (.leaf 3252813252732526203252513252410325223252120325203251923286813286513251632864332273)
 (.leaf 32894332542000033248133247132541133245132538328872325373288633244332536328853324333242432884132535328832328821))))
 (.node 4 (.node 2 (.node 1 (.leaf 329121325633256232911303256110000325553255420032899132552325513289833257332565325493289720)
 (.leaf 3257810325771329241325753257432923332922100032920332762329191003291413326810))
 (.node 1 (.leaf 3294533300332993329840332971332963329520000003258532935232934132584100329281)
 (.leaf 3331013330913330810329501329491329483330423294713330110329461)))
 (.node 2 (.node 1 (.leaf 32975132974103260810326073260632972332969132604132603329672329663332420032965329632333201032962333182)
 (.leaf 329931333521333511333501033349132987333482329861329831032981132980100326143297933340333393333850))
 (.node 1 (.leaf 326463300923264532644233007333682000000000003299513299433355333543)
 (.leaf 326611330241330231326593265833022333021133020333802330191330181003265232651200000)))))
 (.node 8 (.node 4 (.node 2 (.node 1 (.leaf 33039133038133037133036133035132672330343339533303313303213303113266832667232666330292330281330273338823302613302510)
 (.leaf 330571033055132690132689100003304833046200330431330421330411326781))
 (.node 1 (.leaf 33431103342913306633428233065133064100000330601330591330581)
 (.leaf 3308913272532724330883308643272333447233084133083334452003271833082232717330812327161327151327141327131327121327113307320)))
 (.node 2 (.node 1 (.leaf 3274110000331001327353309933097332734327333309630000330911000)
 (.leaf 32757331212033119133118133117132753331163347633275213275132750232749103274633109233108100032742331042))
 (.node 1 (.leaf 33137133498133497100003312810032763334872331261331253348520327601327581)
 (.leaf 327893278833513333151335122327863315033511333149335102327843314823314710000331421003277632775331393327741))))
 (.node 4 (.node 2 (.node 1 (.leaf 328043280333167335294331663316423316313280010003352113352010033156331543351733516400)
 (.leaf 331831328193318223281810331791331781033176133175335382003280910000))
 (.node 1 (.leaf 328373283633201333198132834133196100032830132829132828103318813318710331851331841)
 (.leaf 3321710003357513321233574232848332112332101033208103320610328413320423284010)))
 (.node 2 (.node 1 (.leaf 328703286933231300328673286633228300000328603322433586332859328583322333585433222132857332192000)
 (.leaf 33246103360210003324010003287213323310))
 (.node 1 (.leaf 332611032900103325510003325310328933325120)
 (.leaf 3327713363413327510003326910003326710))))))
 (.node 16 (.node 8 (.node 4 (.node 2 (.node 1 (.leaf 33652100000032933329322032931329302329291032927329263328230329251)
 (.leaf 33313100033307336662333061333053366433662303330313330233660336593000000))
 (.node 1 (.leaf 32971329703332733332613296833325203332310333211000333193331723367433673203331610336711)
 (.leaf 333433370133700333342100333411336961333373369520003333310000333281)))
 (.node 2 (.node 1 (.leaf 330003299933361332998333602032996333582033356337122033711337102333533370920000000)
 (.leaf 330163337733733333015333762330143337523301333012333743330113337320330101333701330083336933726333725337242333673336533723333003333642330023336323300110333621))
 (.node 1 (.leaf 330301003338713338613338513338413338313338213338110003337933736233378337342)
 (.leaf 330473340723340613304533044233404133403133402133040334012334001333991333981333971333961033394133393133392337492))))
 (.node 4 (.node 2 (.node 1 (.leaf 3306313306233424233061100000003305413305333052334143330513341323305033410233049334092334081)
 (.leaf 33079330783307733440334385334371334361334351334341033432337902033430133787100000))
 (.node 1 (.leaf 33813133094133455133454103345013344933807233448338062330873380523344613308513344433802200334433344133800337993379850)
 (.leaf 3347010003310633466233105133103133102334632334621331011334601334591334583381520330951)))
 (.node 2 (.node 1 (.leaf 331271334861033840103348413312233120334833334821000003311513311433113331123331111)
 (.leaf 33503103313833501334993003385210338481000000))
 (.node 1 (.leaf 33519133518338723387130338703386923315210003386410331461000)
 (.leaf 3317433535338903331733317233534338894003353310331693353123316833530233882133528338812331651335263352433880333162335232335221033876338752)))))
 (.node 8 (.node 4 (.node 2 (.node 1 (.leaf 33189133549133548103354613354513354433898233181335432331803354223354133895233540133539338932033537133536338912)
 (.leaf 3356713356633919233203332023356530332003319923356010331971033195133194133193133192331913355333319033552339063))
 (.node 1 (.leaf 33221335842332201335823358023321810332151000000332091335711335681)
 (.leaf 33601133241133599100332321335931332301033229335902335891332263358820033587133940339392)))
 (.node 2 (.node 1 (.leaf 3361513361410000332523361123361013325033249233606100336051000)
 (.leaf 332703362623362510000033621133620100))
 (.node 1 (.leaf 34001340002339991000000033638133280336372336361003363510)
 (.leaf 3366510336633366134015303401234011233658340102000336561336553400723365413365333651200336501))))
 (.node 4 (.node 2 (.node 1 (.leaf 336813367923332233678233677133676133675340272003367210003367013366913366813366710)
 (.leaf 3369410336901333321033331336872333303332933686340384336851336841003368310))
 (.node 1 (.leaf 3371334063200003370813370713370634056233347337052033346333453370330003369710)
 (.leaf 3337233371337293337283407723372734076234075134074100003372034070233719133718103371613371510)))
 (.node 2 (.node 1 (.leaf 3374333741200000003373510033732340812337313408023373034079340783)
 (.leaf 337591337581337571337561337551337541337533410323375213375113375010333913374834099340984333903374734097333746133389337452337441))
 (.node 1 (.leaf 33419337773412633377634125233418337753412433341733416337743412343341533773341223337723412123377134120233412334113377033768341195337673411823376610033763133405337622337611337601)
 (.leaf 337913414123414013378934139233788341382033786134136341352033427334263378533783341335337823413223342513413113378134130233423337803412933342233779341283334213342033778341274)))))))
 (.node 32 (.node 16 (.node 8 (.node 4 (.node 2 (.node 1 (.leaf 341553415423415313380113415110033797100337941033792341422)
 (.leaf 334683346720033465334642033818133461338172338163416723416510000338121334533345233809333451338082))
 (.node 1 (.leaf 3383910033481334802334793347833835333477338322003383110334713382720334691338241)
 (.leaf 335023385723385413350033853200000003384713384610000)))
 (.node 2 (.node 1 (.leaf 34216103421413421334212203421113350934210203350833862338603420843350633505338593420743420510338581)
 (.leaf 3388734235200335323388623388534232342313338841003352713352533878342263000000))
 (.node 1 (.leaf 339021335471339003424723389913424513389713389613424213389413424013389210034237133888342362)
 (.leaf 3392113392013356433563339173033562335613391533391434262203355913355833911233557335563391030335551335541003355133550339043))))
 (.node 4 (.node 2 (.node 1 (.leaf 33581100335793357820335773357620003357333572203357033569339233000)
 (.leaf 339531000335953359420335923359133945300033941342882342871033938342863428530335831))
 (.node 1 (.leaf 33613133612100033609336082339631336073396223396113360433960233959133603339582339573430423395613360010)
 (.leaf 33982100000033977100000339691339681)))
 (.node 2 (.node 1 (.leaf 34344133998100339971000339911339903433534334300033988100)
 (.leaf 340161034014343572340131034354103365734009234008340063435234351434005134004134348134347134003134002343462))
 (.node 1 (.leaf 34031100340303402820003402613402513402413402313402210340201340191340181)
 (.leaf 340491000340451003368933688340403340391343833438223403710000336801)))))
 (.node 8 (.node 4 (.node 2 (.node 1 (.leaf 340643440720340623440523406113406013405913405834401234057103405513405413405313370234052234051343943439333369934050343923)
 (.leaf 3407334416233722340722337213407120340691337171340671340661))
 (.node 1 (.leaf 340953443823409413409334437234092134091134090133740337393408933373813408713373734086234085344282003408413408310)
 (.leaf 34111134110344532341093445223410834451234107344502341063444923410534448234104344472034102344452341013444423410034443203444234441234440134096344392)))
 (.node 2 (.node 1 (.leaf 344711000344661344651344641344631344621341173446123411634460233765341153445933445834457233764341132341121)
 (.leaf 34143344862000000344801341373447923413434478344773344761003447534474200))
 (.node 1 (.leaf 3381133810341613000000003415234494234493134150341483449234491400337963414520)
 (.leaf 33826338252033823341722338221338213382023381910034166103416413381434163234506100))))
 (.node 4 (.node 2 (.node 1 (.leaf 341931338411003418913383833837338363341871033834133833100034180100)
 (.leaf 34546134206345442000033856338553420330000000034194345332))
 (.node 1 (.leaf 3422310345601338743422223387334221345583342201342173455620000034550134549100)
 (.leaf 3423910000342341000003388334230234229345673456630033879338772)))
 (.node 2 (.node 1 (.leaf 3390933908342553339073425423425334591234252133905342513459034589433903134249133901342482034246100003424110)
 (.leaf 339261339251339241033922100339183426634264333916342632034261103391334259233912342582342571342561))
 (.node 1 (.leaf 3462510346241346231033937339363428433393533934342833462140339333393234279300339313461523393033929342773427543392813392710)
 (.leaf 343051003395533954234301100339491000339473394620339443429023394333942342893462740))))))
 (.node 16 (.node 8 (.node 4 (.node 2 (.node 1 (.leaf 34316346542343151339673431423431334650233966133965133964343123464933431110346461343081343073464420)
 (.leaf 339891000343281000339781343231000))
 (.node 1 (.leaf 343503468923434910000034345103434313434210000)
 (.leaf 343691003436413402134363200034017134360103435810343563469423435510)))
 (.node 2 (.node 1 (.leaf 3472113438113403634380347183340351034034340333437733437613403210034029134373134372100)
 (.leaf 344001343993473423439813439713439634731234395347303472933472834727200340483439123404734390234046343892034041343852343841))
 (.node 1 (.leaf 344171034415347502344141034068344122344111344101340653440934743334408103440613474034739234404134403347382344021)
 (.leaf 3408834431347673476643443010003476334762203442613408234425234424134423100344201344191344181))))
 (.node 4 (.node 2 (.node 1 (.leaf 34782134446347812034780134779347782034777134776134775134774134773134436347722344353477123443413443334769234432347682)
 (.leaf 34793134114344563479234791434455134454347903478930347871347861347851347841347831))
 (.node 1 (.leaf 344811000348121348113481020034473348082344721000000)
 (.leaf 3449634831348303344953482920003414713448834825348243482343448734822203482110344831003448234817348163)))
 (.node 2 (.node 1 (.leaf 341693416834511303450910034508134162345052003416034159345043034158341572034156345003449833449710)
 (.leaf 3452813418834527200000034175103417413417313417134514348493345131341701))
 (.node 1 (.leaf 3454313420434542234202345412342013420023419910003419510034532100)
 (.leaf 3455913488813488713421934886234885100342151000000345451348741)))))
 (.node 8 (.node 4 (.node 2 (.node 1 (.leaf 342331003489834897234568134895134228342272034225342243456434562400)
 (.leaf 3425034588234587134586134585134584134583134244345822342433458123458013457910345771342381))
 (.node 1 (.leaf 342703426920034268342672034265346022346011346001345993492934928334598134260345972345961000345921)
 (.leaf 34949134282342813462033494713428034618234278346172346163494423427613461434943203427434612234273346112342723427134610349394)))
 (.node 2 (.node 1 (.leaf 34641103430234639234638134300346372000034294342922034291103462634955200)
 (.leaf 346481343103430934647303464510343063464334972334303346422))
 (.node 1 (.leaf 3467110034333346702000000000000)
 (.leaf 3468713468610003468413468335010350093346821346811346801000000))))
 (.node 4 (.node 2 (.node 1 (.leaf 3436634705234365347042347033470135029334362347003502830034361346992034359346972346961346951350201343533469334691350194350181350171346901)
 (.leaf 3471910347171343793437834716334715134714100343753437434713334712347103503930034371347092343703470823470713436834367347063))
 (.node 1 (.leaf 34737350652347363506423473513506213473335061350603347323505920000034726134725134722103472035049350483)
 (.leaf 3475310003441334749350773507643474813474713474613474535072234744103474235070350693347413506820350671350661)))
 (.node 2 (.node 1 (.leaf 3509513476513442934764350943000003476010347581344223442134757334756100)
 (.leaf 351111351101351091351081351071351061035105351042351031351021351011351001350991347701350981350971))
 (.node 1 (.leaf 3512935128200034797134796103479413512013511913511813478835117235116351152351141351131351121)
 (.leaf 3481535144200034813100034809135136134807134806134470344693480533446834804234467348013513030))))))))
 (.node 64 (.node 32 (.node 16 (.node 8 (.node 4 (.node 2 (.node 1 (.leaf 34828351562003482713482613515335152351513035149103448534484348193035146134818351452)
 (.leaf 3451234847234846134845134510348442348431034841134507100348391345033450234501348384000348321))
 (.node 1 (.leaf 3453410351961348621000003452634856351853348551003451534850203484835177351763)
 (.leaf 34551100345481035207100348731034871134540345393487035203352025003453810)))
 (.node 2 (.node 1 (.leaf 34896352282034565345633489433489113456134890234889103522110352203521923521810345541345531345521)
 (.leaf 349111349101349091034578349073524133490613490535239352383345763490435237334575349033523633457434902234573349012345723457120034570345693489930))
 (.node 1 (.leaf 3492713492635260234925352592345953492435258334923352573525633459434593349223034920134919134918103491613491513491435247234913352462349121)
 (.leaf 34945135276103461313494135274200346093460823460734606200346053460423460334931234930352642352631352611))))
 (.node 4 (.node 2 (.node 1 (.leaf 34632346302034957134628349562000000346223495135284352834349501346193528223494835281352803034946352792)
 (.leaf 349773530935308334976100003497113464034970234969135299134967100000))
 (.node 1 (.leaf 3465334981353133346523498023465134979200349781)
 (.leaf 3500810000000000346691000)))
 (.node 2 (.node 1 (.leaf 34698100350221350211000003501535344203501313468535012200)
 (.leaf 35040103503813503710035032103503013470210035026100))
 (.node 1 (.leaf 35057135056135055103505310000353771350471350461035042100)
 (.leaf 35073135402354012350713540023539910353981353971353961353951353943539323506335392235391135390100350581)))))
 (.node 8 (.node 4 (.node 2 (.node 1 (.leaf 3476135089235088134759350873541633508613508510347551347541034752347513507830000035074354042)
 (.leaf 35433135432135431135430135429135428135427100000354231350921350911350901))
 (.node 1 (.leaf 35445135444135443135442135441135440135439135438135437354362354351354341)
 (.leaf 35137103513513513413513335463235132103545913545813479934798351263545740351243545635455335123354532351221351211354511)))
 (.node 2 (.node 1 (.leaf 3548213515035481203514835480354793547843514735477200035143134814100035138100)
 (.leaf 3516713484010348373516635164334836134835348343516233516135492354913035159135158100351573515535486354854003515435484354833))
 (.node 1 (.leaf 35509135178355082035506135175355052351741351731351721351713550123517013484210)
 (.leaf 3486434863235529100351951000034859134858103485710))))
 (.node 4 (.node 2 (.node 1 (.leaf 34883134882103554313487913487835212200000352061348723520523520435534200)
 (.leaf 3523110003522910034893348922035222100000348841))
 (.node 1 (.leaf 352451352441352431352421349081352401355691355681003523510349001352321)
 (.leaf 3526210355913559020035588100349211000349171352491352481)))
 (.node 2 (.node 1 (.leaf 3561135610203560935608235278135277103494235275203494013493835272356013352711349373493635270352683560050349353493423493334932352673526540)
 (.leaf 35289135288135287134954352862349531349521352853561435613300356121))
 (.node 1 (.leaf 35311103563913531035638200349753497435307334973353063563533530535634235304100349681000)
 (.leaf 35328135327100000000353181000353121))))))
 (.node 16 (.node 8 (.node 4 (.node 2 (.node 1 (.leaf 3567110035011353412353403566923533935668235338100000000)
 (.leaf 350313536123535810035027353572350251350243535520035352135351356793567833534813534735677356763000))
 (.node 1 (.leaf 35045353752350443504335374353723570235701603504113537110353691353681350363536735365335035353642350343536323503335362200)
 (.leaf 3572410003538935721357203353881353871353861350543538523538410353801000353781)))
 (.node 2 (.node 1 (.leaf 35406357382350753540535737357364357351354033573423573313573210035730135729135728135727357262357251)
 (.leaf 357561354223575420035421135420135419135418357502354173574935748303508435415235083354142035082135081350802350791))
 (.node 1 (.leaf 3577213577113577013576910357671357663576523576413576313576213576113576013575913542613509635425357583354241)
 (.leaf 3545413578535784235450100354493578023544835779235447135446135777135776135775135774357732))))
 (.node 4 (.node 2 (.node 1 (.leaf 35141354702351401354681003546713546613546510035462357932354611000)
 (.leaf 3548735819358183358173581620000358121000354751354741354731351421))
 (.node 1 (.leaf 3550335835235502100035169355002351681003516513516335493200358221354891354881)
 (.leaf 35521358552351883518735520335186100035848100355101358421358401355071035838135504358362)))
 (.node 2 (.node 1 (.leaf 35535355333587435873400355321035867135866135528135864100035190135189355222)
 (.leaf 355501355493588820352171000000352093520820355381))
 (.node 1 (.leaf 355671355661003523435233355653556340035562135230103555913522735558358973352263555735895335556135225352243522335555435554358922)
 (.leaf 352543525320352521352513525020035577103557513557413557313557213557113557035909200)))))
 (.node 8 (.node 4 (.node 2 (.node 1 (.leaf 35939359382352693559923526635598355963000355921000000355871352551)
 (.leaf 3561510359531000000003560613560513560413527335603359423356021))
 (.node 1 (.leaf 3530335633235302135301353002000000035291356212352903562023561913561810356161)
 (.leaf 3599213599110356401000035637135636100)))
 (.node 2 (.node 1 (.leaf 353213565520035654135319100359971)
 (.leaf 3568010035346356752035345135672100000000))
 (.node 1 (.leaf 35366356972000000035360353592356881035356356862356851356841353543535320)
 (.leaf 360611360591035708135379357072357063605736056335705135376103570436053360523357031003537010356981))))
 (.node 4 (.node 2 (.node 1 (.leaf 360831360823608136080300003572313572210003571813571736070235716135383357152357141)
 (.leaf 354133541235745360994357441354113541035743360973609653574213540935741360953354083540735740335739136092360912360903608920360881360871036086135731360853608430))
 (.node 1 (.leaf 3611436113235757361122035755100035753135752100361031361023610123574710)
 (.leaf 361283612723612613612513612413576836123236122136121361202361191361181000361151)))
 (.node 2 (.node 1 (.leaf 3614513579013578913578810035787361402357863613923578336138203578136137361363361351361343613320035778361312)
 (.leaf 35804135472358032354711035469135801135800100361501357963579436149361484361471357921))
 (.node 1 (.leaf 361723617136170335815135814135813361682000358091354761)
 (.leaf 35839136192135837136191103583436189235833100035499354982354973583020354963549535828335494358252358241)))))))
 (.node 32 (.node 16 (.node 8 (.node 4 (.node 2 (.node 1 (.leaf 358571358563620920358541000000036199136198361972361961358411361941)
 (.leaf 35872362232000035865103621610000000))
 (.node 1 (.leaf 355483554723554613554510035542103554013553910358771355371355363587520)
 (.leaf 3556410003556135560359003625136250535899135898358963624830358943624620035893135553355522355511358901)))
 (.node 2 (.node 1 (.leaf 3558035919235918135579355782035576135914135913135912362632359111359103626220359081359071000)
 (.leaf 355973593720355951355943559323593110003558935927362793362781035586355853592630355843592223558313558235581359203))
 (.node 1 (.leaf 3630210359511359503630120359481356073594723594636296235945362952000359411362911362903628920)
 (.leaf 35629100000003595910359571356173595623595513595410359521))))
 (.node 4 (.node 2 (.node 1 (.leaf 35972100359711356321)
 (.leaf 36337135996363362359951363353633420363321003633136329200363273632620363241))
 (.node 1 (.leaf 3565810000000)
 (.leaf 35683135682135681100360261003602513567413567310003567010)))
 (.node 2 (.node 1 (.leaf 35696360452035695135694360442356933604336041335692356912035690356893604030356873603620000)
 (.leaf 36388136387100363851360603605823570910360553638020363781360543637620003570035699360503))
 (.node 1 (.leaf 36077100360761360751360741357193607336071300036069136068136067363912363901)
 (.leaf 3642136420203609436418236093136416103641536414203641213641113641013640913640813640710)))))
 (.node 8 (.node 4 (.node 2 (.node 1 (.leaf 3611136438364373364361036110361082003610713610613575113610413642713642610357463610023642436423236098364222)
 (.leaf 3612936453203645236451236450103644936448236447136446364452036444136117364432361161364411000))
 (.node 1 (.leaf 36143364692361423646720036141136465100000361321364571036455136130364542)
 (.leaf 3580635805361613615940003580236157203615513615413579836153364783647743579736152364763361513647536474303647313614636472236471136144364702)))
 (.node 2 (.node 1 (.leaf 3582110358203617320364971003649436493236169103581113581010358083616223580710)
 (.leaf 36516136190136515136188103583213618536510235831103582910361821358273582636181361794361781035823361762))
 (.node 1 (.leaf 365301000000358471003652310361951036193136518365172)
 (.leaf 3622436546200000036539365382036537100000))))
 (.node 4 (.node 2 (.node 1 (.leaf 35889362413656233624013588736560235886358853623836559436237100358823588136234335880365542035878100362281358763622736225365493654850)
 (.leaf 3590410359031359023625223590110036572365712362493657020362471003624413589136243365653362421))
 (.node 1 (.leaf 362711362703659220359173626823591613591536266236265136264365862003626110362591003590635905362563)
 (.leaf 36288135936359353628733593413593313593236284362823035930362802359293592820000359253592436276335923135921362722)))
 (.node 2 (.node 1 (.leaf 363031000366231359491036298100359443594336616336294136293366152359403629223661210)
 (.leaf 3632136645203664310035970100359613596023631013595810036306100))
 (.node 1 (.leaf 366593665823633310036330100036328136325100366471363231363221)
 (.leaf 3602136020203601910000000036338100))))))
 (.node 16 (.node 8 (.node 4 (.node 2 (.node 1 (.leaf 360423636720036039360382036037103603510360343667523635710360283602720)
 (.leaf 366993669823638136379203637710036051366942363751036049360483637333604736046200))
 (.node 1 (.leaf 36401367182364003671723607236399367163363983639620036395363932003639236709200000363861)
 (.leaf 364171367331364133673223673110036729367282003640636725236405136404367232360793607836403367224036720136402367192)))
 (.node 2 (.node 1 (.leaf 36431136430103610510036744103642536742203674036739236738103673713641936736236735367342)
 (.leaf 3676736766200036763103676113644213675936758236440136439136756100361091364341))
 (.node 1 (.leaf 364641367801000000364561000000)
 (.leaf 364813679923648013647910003679210000364681000364661))))
 (.node 4 (.node 2 (.node 1 (.leaf 364953681336812336492368112361673649123616636490368093361653648923616436163236487136486368052364853680423648413648310036482368002)
 (.leaf 3618736511236186103618413618313650810361803650636504303617713650110361753617436499300364961))
 (.node 1 (.leaf 362083652920036200365242036841100000368341036514368322365131365121)
 (.leaf 3622010362193654123621836217365403000000000362113621036532300)))
 (.node 2 (.node 1 (.leaf 365611036236100362333655623655510036229103655013687210365473687020)
 (.leaf 3625436253200000000362451365663656436888300365631362391))
 (.node 1 (.leaf 3626913659013626713658813658710365851365841365833690723626036582369063690540036258136257365782365771362551)
 (.leaf 36286366092362851036283366042362811366021000036277136275362743659633627313659413659310)))))
 (.node 8 (.node 4 (.node 2 (.node 1 (.leaf 3694513630036622236299366212366203694323629736619203661710036614136613366113693536934400366101)
 (.leaf 369621000363111366321363091036308136307366282036305363043662630366241))
 (.node 1 (.leaf 3665513665410000366491003664836646369783000363203664436974303664236972369713)
 (.leaf 36662136661369933699230003665710)))
 (.node 2 (.node 1 (.leaf 36369103702213636813636636683236365136364366812363633668023636236679370163701543636113636036677370143363593635836676370134037011100)
 (.leaf 3670313638436702236383367012367001363821370351366973703423669610000363743669323669213669113637236371363703))
 (.node 1 (.leaf 3672110000363971003639436713367113367101000000)
 (.leaf 370723707120000003673037065370643367273706323672610367243706120000))))
 (.node 4 (.node 2 (.node 1 (.leaf 364353675336751370884364333643220000364293642820000036741370752000)
 (.leaf 37102100367651367643676220367601370961036757100036755137090370892))
 (.node 1 (.leaf 36782100364601364593645836778367764367751000003676910)
 (.leaf 36798371352367971367961003679537130236794136793367912367901003678713678610367841)))
 (.node 2 (.node 1 (.leaf 3681510000037146136810368083714533680713648836806371423003680313713913680110)
 (.leaf 37167100003650910365073682623650536825368233003650336502368223682040036500368192364981))
 (.node 1 (.leaf 3653136849200365283684620000365221365211365201365193683823683710368331371691)
 (.leaf 371921371911000000)))))))))
 (.node 128 (.node 64 (.node 32 (.node 16 (.node 8 (.node 4 (.node 2 (.node 1 (.leaf 368793687737212372114003687410365511368731000036543368662365421368641)
 (.leaf 36573136894100365691368921365681365673689037224372234368891000000365581))
 (.node 1 (.leaf 369101369091369081000365813690423658036903236902136579136900136899136576103657536574368983)
 (.leaf 36605369272366031036926369242366013692323660036922372563365993692123659836597369203725543691913659536918372533369171369161369151365911369131365891)))
 (.node 2 (.node 1 (.leaf 36944137276136942136618369413727430036938100372693726823726713693313693213660836607369313366061)
 (.leaf 36961100366331369551366313695423663013662936952200366271366251036946100))
 (.node 1 (.leaf 36975103697337305237304137303373022037300103729913729810000)
 (.leaf 36660369913732433699010000000366533665223665136650369833698140369791036977373102369761))))
 (.node 4 (.node 2 (.node 1 (.leaf 36994100)
 (.leaf 36688366873702330036685103668436682237017373442000003734037339237012100))
 (.node 1 (.leaf 37036373642373631037033103736013669537032237031373582000366901366891)
 (.leaf 37054103671513671437049200003704610367083670723670613670536704370403)))
 (.node 2 (.node 1 (.leaf 37399103707013706937395237068373942370673739323706613739213706237390203706037388237059100370581)
 (.leaf 36752136750370872367493708620367481367471367463674520367431037078374032037076370743740133707310))
 (.node 1 (.leaf 3710010037099370972000370951003709237419236754370913741830)
 (.leaf 3712037118203711610367791037114137439137110136774137436136773371093710737435374345003710437432374313)))))
 (.node 8 (.node 4 (.node 2 (.node 1 (.leaf 37136100371313745820003712713712613712513712413712313712213712110)
 (.leaf 36814371512000374731371441371431000371411368023714037138374664371371374641))
 (.node 1 (.leaf 37495136831371662368303716523682936828236827137162137488103716113682437160236821371572000368183681737153336816371522)
 (.leaf 371831368483718223684710037180100368401368393717420036836368353717133717010371681)))
 (.node 2 (.node 1 (.leaf 36863368622036861136860136859371962037194100000000)
 (.leaf 3688213688136880200037210137536137208100037206137205137204100))
 (.node 1 (.leaf 368973723023689636895372293003722813689337227375533755243722637551236891372253755033722210368873722023688636885372193003688436883372183)
 (.leaf 369123691137245303724313724213724113724013723913723810037235136901372342037232375582))))
 (.node 4 (.node 2 (.node 1 (.leaf 37265136930369292369281036925103725710000000372491369141)
 (.leaf 3694036939203759813693736936372713372701375951000))
 (.node 1 (.leaf 37297137296137295376222003695610003695313695113695010369493694823694710)
 (.leaf 3731213730937637376363000003763010003730137627376263000)))
 (.node 2 (.node 1 (.leaf 37326100037322136989103698836987373213369861373193731723698536984373163373153764223731413731310)
 (.leaf 373431000037656376552037338100000000))
 (.node 1 (.leaf 376751370301373571370291370283702723702637025237024373512373501003702113702037019376633373451376611)
 (.leaf 3769313704813704710037045370443704337370403704237041373683373671373663768423703937038373653370371376811000))))))
 (.node 16 (.node 8 (.node 4 (.node 2 (.node 1 (.leaf 373911037389373873770630003705737701237056373843770033705537383237382376972037053373802370523705137050373793737737696376957373761)
 (.leaf 3708137080237408137079374052370773740423772113740210003740010373981373971000))
 (.node 1 (.leaf 374231037094137093377382374211374201374173773637735377344374161003741513741410370853708437412337083137082374102)
 (.leaf 3775713743813743710000000371031374281003742710)))
 (.node 2 (.node 1 (.leaf 3712837454377723374533777023745213745110037448100374473744537763303776237761237444374423776033744110)
 (.leaf 3747113747037788237787103746913778537784237467374652000374613777937778337134377772371333713237459300371291))
 (.node 1 (.leaf 3748713748613715937485237158374842378011371563748223715537154203747910374771371503747623714937475237148371473747430374721)
 (.leaf 3717613717510374991371733717237498337497100374941374931374921371643749123716337490237489378073780630))))
 (.node 4 (.node 2 (.node 1 (.leaf 3752110371903751723751610037515100000371811000)
 (.leaf 3753513720737534200000037198137197100037193375222))
 (.node 1 (.leaf 3722110003721737544237216372153754337541403721413721337538200)
 (.leaf 37565137564100372373723637561300003723137556237555100375541)))
 (.node 2 (.node 1 (.leaf 372581037581103725413757813725213725137576237250103724837247375733788343757213724637571237244375702375693787920)
 (.leaf 3727537601237600137273372722000000372663759223726437591237263137262375872372613726023725910))
 (.node 1 (.leaf 3728937614237288372872037286137285372842037283137282372813760733728010372793727837604300372771376021)
 (.leaf 376313794337942300037629379392376281376253793620037624379342376233793323793213729437621237620100)))))
 (.node 8 (.node 4 (.node 2 (.node 1 (.leaf 376493795923732037648379583376473764537957337318376443795637955437643103764113764013763937951379503376381000379461373083730737635376333794553730637632379443)
 (.leaf 37978137662379762379751037659379742373423734137658337657100003732537652200373231376501))
 (.node 1 (.leaf 376801373623767923736137359376783767640003735637674203735537354376703373531373523766820376661373493766523734837347376643)
 (.leaf 38009380083800733769437692203737537374373733769038005380046373723768923768813768710373693768538000337999137997103768310)))
 (.node 2 (.node 1 (.leaf 37396137712137711137710137709137708137707103770537703237386377022373853801620003769913769838012380113)
 (.leaf 37411377292377283772623740937725380393377241374073740637723337722103772013771938034200377181037716100))
 (.node 1 (.leaf 3774113742237740380533377391380523805123773710003773338047380463377321374133773120)
 (.leaf 377561377551000000377481003774538061380603805940))))
 (.node 4 (.node 2 (.node 1 (.leaf 3777613777313745737456374553003777137769380843808343776813776738082237450374493776633776513776410000)
 (.leaf 3778910003810113746837786200037780137463374622000))
 (.node 1 (.leaf 3780513780413780313780210374833780023779913748137798237797137480377962374781000)
 (.leaf 381361378211378201375031375023781823750137817237500100374961000378091378081)))
 (.node 2 (.node 1 (.leaf 3783910000000000000)
 (.leaf 37546137545100375423785323785210000375373784723784610000))
 (.node 1 (.leaf 3756213756037870200375593786923755713786710000378621378611375493786023754837859237547378582)
 (.leaf 37887137577378862378851375753757437884303788213788113788010037568375672375663787623787513787410375631)))))))
 (.node 32 (.node 16 (.node 8 (.node 4 (.node 2 (.node 1 (.leaf 37594375932003790213759037901203758937588203758613758537584378943375831375823789223789113789013758037889237579378882)
 (.leaf 37609376082379171037606376053791530003760313791210037599379092375971375963790720))
 (.node 1 (.leaf 379373824720379353824520382441382421379313824123824013823910000037613376123761137921437610379202)
 (.leaf 37949100000038254138253138252137941382512379383825038249300)))
 (.node 2 (.node 1 (.leaf 38275100376513796323796238273382723379613827123796038270238269138268138267382662379541379531379521)
 (.leaf 376691376673798123798013797938292238291382902379771382881038287137973382862000379693828220))
 (.node 1 (.leaf 3799837996383093000003767713799110003767337672237671379842)
 (.leaf 38015138014100380131000383203831923800610038317103800338001383143383131))))
 (.node 4 (.node 2 (.node 1 (.leaf 37717138031137715380302377143771338027300038025103802313802210380201377043801938017383303832950)
 (.leaf 377301003772738042238041138038103803610000))
 (.node 1 (.leaf 377433805838370338057383682380561380553836720383651380501380493836320)
 (.leaf 380791003807810003775910000380693838138380303806713806638064383783)))
 (.node 2 (.node 1 (.leaf 3778238095384083377813809420000380891377753777438088338087100038085383962038081383953839433808038393383923)
 (.leaf 3779537794381103381071377933779223779138105238104137790381032038415384142381023841323809913809838411237783380972380961))
 (.node 1 (.leaf 37813381272378121378113812523781038124238123138122138121100003811610000)
 (.leaf 381351381341381331378191037816137815381292378141)))))
 (.node 8 (.node 4 (.node 2 (.node 1 (.leaf 38160100000000000000)
 (.leaf 37863138176103848313817338481238172138171384802378573785638170384793847853785537854381693381683847720037851381652037849378483816338161384713847060))
 (.node 1 (.leaf 381911378783787738190303818813818710037872378713818433818313818210378681037866378653817830378641)
 (.leaf 3789510378933820523820413820313820210000381971038195138194138193138192385012)))
 (.node 2 (.node 1 (.leaf 37911137910137908100379061379053790437903300037900137899137898137897137896382082)
 (.leaf 38549385482003792238234238233137919137918103791638229200379141379133822520))
 (.node 1 (.leaf 38248382463855738556400003824310)
 (.leaf 3858338582238581138580138579138578138577385762382651000382611003794837947200))))
 (.node 4 (.node 2 (.node 1 (.leaf 386091003828513797237971382843860638605500037968138588138276385872000382741)
 (.leaf 37993379923830533799010037989383012379883798723798638297237985138295137982382942382931000382891386111))
 (.node 1 (.leaf 383213864338642300000000383101000037995379943830730)
 (.leaf 3802438337238336103802110383321383311000383271003801038322200)))
 (.node 2 (.node 1 (.leaf 3804038353383513867540383491380373834823834710380351380333834620003802913802838341200380261)
 (.leaf 38369386902038689386882383661038686103868413804838361238360138359103804538044203804338355238354386762))
 (.node 1 (.leaf 38072138070383832000383791383761003806210038372100)
 (.leaf 383981380863839720038718387172387151000038077383902380753838920383871383841))))))
 (.node 16 (.node 8 (.node 4 (.node 2 (.node 1 (.leaf 38100384123873530038409100003840413809338092384033380911380903840120)
 (.leaf 381193811838430338117103811513811410381133842438746338112384232381113842238744338421103810938108238106384182384171384161))
 (.node 1 (.leaf 3844613844513813238444387673381313844338766338130138441138128138439138126138437138436138435100381201)
 (.leaf 384571003845610000384491384481)))
 (.node 2 (.node 1 (.leaf 387951387941000381673816638476387914384753879023816438474203847210038469387842000)
 (.leaf 3818613818538493238492100381813849138805338180138179100381771381753848523817438484387993038482387972))
 (.node 1 (.leaf 3851110038201382003819938508438198385072038196385052385041385033881923850238818200384991381893849820384961)
 (.leaf 382203821923821838526238217382162003821538524238214138213382122382111382101382093851720382071382063851423851310))))
 (.node 4 (.node 2 (.node 1 (.leaf 38232138231138230138538138228103822713822613822410382233853323822213822110)
 (.leaf 38560100385551385541003855310038550388633886230388613886023854710))
 (.node 1 (.leaf 38575388893888833826438574238573138263385722382623857120382601382593825820382571038256382553856630000)
 (.leaf 389041389031389021389011385863890038899338585100385841388951388941388931388921388911388901)))
 (.node 2 (.node 1 (.leaf 38608389292386073892720038281386042382803860320386011000000389061)
 (.leaf 383023862223830038621238299386202382981382961386173893938938338616138615138614138613138612103861013893110))
 (.node 1 (.leaf 3831838641386393896143863838960389593383163831538637389584386361038634138312383113895530386311038308138630138306386292386261383043830320)
 (.leaf 38334386572386561383331038653386512383281003864913832638648238325383243864533864410389653896423896310)))))
 (.node 8 (.node 4 (.node 2 (.node 1 (.leaf 3835038671238670138669100383451383441383431383421386641383403866323866213833913833810383351)
 (.leaf 39007138362386852390051386831038358386812383573868023835613867810038352138674386722))
 (.node 1 (.leaf 38382138702100038700103837539018203837338696390173386931039014390132386923901220390111)
 (.leaf 390411038719100003839138714200000000)))
 (.node 2 (.node 1 (.leaf 387363905620387323905423841010384071387281384063872723840513872513840210384001383991387201)
 (.leaf 3875139072238429387502384283874923842738748390703384263874739069390684384251000038420387432384193874020000))
 (.node 1 (.leaf 39087138765138442387642387633908523876239084238440138760138438387592387581003843438757238433384322384311387521)
 (.leaf 387851000038778100387771000387711387701038447387682))))
 (.node 4 (.node 2 (.node 1 (.leaf 39116139115103911313911213879639111200038792100038473100)
 (.leaf 3850038815238814138813391302384973881220003849438810388083038806100384881038487384863880130))
 (.node 1 (.leaf 38516388302385151388281385121388261038510385093882430038506100000)
 (.leaf 3853238848203853138530388463385293884523852838844203852738525388423388391003852338838238522138521385202385191385181)))
 (.node 2 (.node 1 (.leaf 3855238551388653388643917839177300039173100388551385401385391385371385361385353885020385341)
 (.leaf 3856510385643856338877338562388742385611038873138559385582038868138867100388661))
 (.node 1 (.leaf 3889713889610392071392061392051392041392031388873920223888610388841038570138569385682385671)
 (.leaf 38911100038905100000000388981))))))))
 (.node 64 (.node 32 (.node 16 (.node 8 (.node 4 (.node 2 (.node 1 (.leaf 389281003892513860238924203892210000389151000)
 (.leaf 3894210038619103893739255238936392542389351389341389331389321038930100))
 (.node 1 (.leaf 392781003863538956392753392731386333895423863210039270392692389511386283895039268338627103862513862438623389443)
 (.leaf 386551389761386543897323897213865010038970138647138646389682000392821038962392802)))
 (.node 2 (.node 1 (.leaf 38991138990393093930833866810038667389882386661386651389851038661389832386603898220386593865823897910)
 (.leaf 3868210038679138999138677138997103867310))
 (.node 1 (.leaf 390231003902239020393403039337100390151393331393321003869139330200)
 (.leaf 39038139037138716100038713387123871133903313871039032238709390312387081390271000))))
 (.node 4 (.node 2 (.node 1 (.leaf 387343873320387311387301038729390492038726103904739365238724387233904633872213872139042200)
 (.leaf 3907139390200393881003874539067200387423874139062303873910387381387373905720))
 (.node 1 (.leaf 390863940323908339402394013387613908223908139400239080393992390791390781039395138756387553907733875438753390743390733939120)
 (.leaf 3878838787239102100391011390981003909710390931390921038769390902390893940823908839407394063)))
 (.node 2 (.node 1 (.leaf 38804103880338802391173000039429103942810387933911023910913910810387891)
 (.leaf 391351039133394492388173913223881610391291003881113880939125203944013880739124391223943940391201))
 (.node 1 (.leaf 38836388352388343883339149338832139147138831138829391452003882713882539141239140103882338822239137138821388202)
 (.leaf 38851100388491038847391642000388431038841138840100388371)))))
 (.node 8 (.node 4 (.node 2 (.node 1 (.leaf 38870138869139181100000394921391763949123917539490239174103885413916913885338852391683)
 (.leaf 3888513919810388831388821388813888023887913887810038876138875139189103887238871391853391841))
 (.node 1 (.leaf 39213139212139211139210395262392093952523920839523203952113952013951913920139518395173392001)
 (.leaf 3891413891338912200039224139221139220139536100392161)))
 (.node 2 (.node 1 (.leaf 3924710039246138926392453924339575439242103892339240200039564139555103955410)
 (.leaf 38947389463894539263403894339261200389413894039258395904392573958923925613958839587239586139253139252139251139250395822392493958120))
 (.node 1 (.leaf 392813961339612303927710039276392743960833960610038953389523927233927139603200389491389481392661)
 (.leaf 389781392961389771389751389743929120389711392881003896939287238967138966392832000))))
 (.node 4 (.node 2 (.node 1 (.leaf 389941389933899239312393104039640139307396392389893930620038987393052389863930423930313898410389811389803929920)
 (.leaf 390103932939661396604390093900839328339327139326139006139324139323139004390033932230390021390013931923900010389981389961389951))
 (.node 1 (.leaf 39026393432393421393411000393391039335396672393341396661039664103933110)
 (.leaf 3936110390401390393935823935513903639687396863039035390342000396811393493934739680339030390293934639679439345139678396772)))
 (.node 2 (.node 1 (.leaf 39058100390553937439372339053139052139051139050393682039048100390453936323904413904310)
 (.leaf 39387103906639383239065139064139063103906139378239060139059393762))
 (.node 1 (.leaf 39405397393973833940413973639735203973413973310003939610039076390753939330)
 (.leaf 39107394242000039419100000039410139091394092397401))))))
 (.node 16 (.node 8 (.node 4 (.node 2 (.node 1 (.leaf 3977010391213943720397663976523911939118394343976443943313943239763203943039760239114100000)
 (.leaf 39139394552039138394532039136394512391343945023977913944813913139447239446103944439774239443139126394423977333944110))
 (.node 1 (.leaf 3915639471239155391542391531003915239151239150394673946539795439148100391461391443946023914339459203914210)
 (.leaf 3948913917013948513948410391673916620391651391631003916213916139160239476139159391583915730)))
 (.node 2 (.node 1 (.leaf 39188391873950433918610039183391822394971003918039179394963000000)
 (.leaf 39849139848139516398472391993951539846303984313919713919613919539194239193139192103919139190200))
 (.node 1 (.leaf 3953513921939218395343039217395322395311039215392142395301395291039527398573985633985510395243985420395223985239851398504)
 (.leaf 3923113923013922913922839227395463039226392252003987213987113987013986939868239537398672398661))))
 (.node 4 (.node 2 (.node 1 (.leaf 399031399021039900139899139898139897139896139894139893139892100000)
 (.leaf 39583399182000392481000392443957739910300395741392413957339908399074039571139905399042))
 (.node 1 (.leaf 396011392671003926539264203926213959239927239260392593959133992513992413992313992213992113958539920239584399192)
 (.leaf 392853928439615300396143994923961139947399463392793961020039609396073994439943400039605399392396041039602399362)))
 (.node 2 (.node 1 (.leaf 393013963339968339300396322392983963120392971396281392953962739962399614392943962639960339293392923962539623399595039290139289100392863961920)
 (.leaf 39317139316139315393142393131039311396422396411039975399742396381003963713963613963513930239634399693))
 (.node 1 (.leaf 396651399993999823966339997239662139659100039325139656139655139654139321396532393203965220393181)
 (.leaf 4001514001440013204001114001010396741003933839671396694000640005500000)))))
 (.node 8 (.node 4 (.node 2 (.node 1 (.leaf 3936439695239362103969413936039691239359396904002633968913935739356396883003935439685239353139351139682100)
 (.leaf 3938039711239379103937739708239375103970713937339706203937139370239369397012400361039367397003969833936610))
 (.node 1 (.leaf 3939413939210397221397211393893972040055303971810393863938523938439717400513039382393813971330)
 (.leaf 397434007823974213974140076200400754007423973740073240072100000039398139397397282)))
 (.node 2 (.node 1 (.leaf 3942739426400943397564009323942539755239754139751100397501000397441)
 (.leaf 39445397752003977210039771401092394381003976740105401043401031040102103943139762401003))
 (.node 1 (.leaf 394633946223946110394583978820394571394563978523945439784203945239782239781139780140118401172000)
 (.leaf 394783947720398071394751394741394731394721039470394692039468139796139466103946410))))
 (.node 4 (.node 2 (.node 1 (.leaf 394953949439823339493103982240159239821100394863981623981540153200394833948220039481394802394791)
 (.leaf 3951013950913950813950739836239506395052003950339834398323395023950139831300395003949939830398284394983982723982610398241))
 (.node 1 (.leaf 4019540194240193104019213985340191240190401892401881401871401861401851398454018423951410039513395122395111)
 (.leaf 402101402091402081040207402064020534020413986540203239864139863139533103986210039528398592398581)))
 (.node 2 (.node 1 (.leaf 3955339552239551139550139549139548139547103954539544200004021110)
 (.leaf 4023914023814023710000039891103988910))
 (.node 1 (.leaf 40257139917100039579399152395783991440253402524395763991339911300039909139906402462040244402432)
 (.leaf 39937139600139935139599395982395973959639931339595399302399294026923959439593399284026844026713992640266402653402641402631402621402611402601402591)))))))
 (.node 32 (.node 16 (.node 8 (.node 4 (.node 2 (.node 1 (.leaf 396173961639951304029013995014028840287239948100399454028440283300003994010399381)
 (.leaf 39967139630399662396293996540304403034039963104029913995840298239622399572039621396202039955139618399522))
 (.node 1 (.leaf 39650139649139648399832396473998223964639645399813396441396433997723997614031510399731399721003997110)
 (.leaf 40001140000100000039658396572000399891399881399871396511)))
 (.node 2 (.node 1 (.leaf 40353100400121403491040009400072396724034740346304034410000)
 (.leaf 4037213969640032204002813969339692400273000400231004002210040017403562400161))
 (.node 1 (.leaf 4004713971210397101397094004320040040139705139704397034003830397021003969940035400333396971)
 (.leaf 397294006320397273972640061303972513972440058239723100400541397194005324039210039716397152397141))))
 (.node 4 (.node 2 (.node 1 (.leaf 400771000404131404124041124007114007040410240409100039732397314006533973040064404043)
 (.leaf 397581397571400951000004008910000000))
 (.node 1 (.leaf 397691039768104044214044114010140440204043913976110397591)
 (.leaf 3979039789240126103978739786401243040122139783401212401201000039778139777401162397761401121)))
 (.node 2 (.node 1 (.leaf 398063980520039803398022398011398001397991397984013523979710040133139794397932397921397911)
 (.leaf 39820398194015834015714015414048510398141398134015223981210398111398103980923980810))
 (.node 1 (.leaf 39838139837401742039835103983310003982910039825401632000)
 (.leaf 405251405241405231405224052124052014051914051840517204018340516405153398441401811003984239841401803398401398391)))))
 (.node 8 (.node 4 (.node 2 (.node 1 (.leaf 405401405391040537405362040202140201100402001398614019940531339860401982401974052824019610405261)
 (.leaf 39885139884402242398834022323988240222405544055343988140221405523402201398803987939878402194055140550640218405492402171402164054720402124054540544304054310405411))
 (.node 1 (.leaf 405701000402351402344056624023340565240232405644056334023113989040228240227405602039888139887398862)
 (.leaf 3991610040254405854058434025114025040583405823004024940247405814058040402451405771040242405764057534057410)))
 (.node 2 (.node 1 (.leaf 3993339932240270140601104060014059914059714059610004059440593240592405912402584059024058910)
 (.leaf 40289406194061830040286140285406154061430399421039941104027914027814027714027610399341))
 (.node 1 (.leaf 40305406342406331399641403021403011403001402974062820406271399564029620399544029440292406234062253995340291200406201)
 (.leaf 403211039980399792399784031620004031440312204031010399704063924030940638200403061))))
 (.node 4 (.node 2 (.node 1 (.leaf 39996399954033533999440334240333139993399923999134033110399901000399861399851399844032320)
 (.leaf 40352104035010000004000340341240002403402040338100))
 (.node 1 (.leaf 403674036540697340364140025400244036330004002114002040360240019403594035730403551000)
 (.leaf 40044403822040042140041403792040039403772400371000400341040031140030140029403682)))
 (.node 2 (.node 1 (.leaf 40399140060400594039834039714039614005740395240056403942403931040391140052407212040050140049403894038734004840386204004640045403843)
 (.leaf 40415407464074530000004006940408240738104006840067404074040544006614040340734240402407332400624040120))
 (.node 1 (.leaf 40432100000404261000000040416407472)
 (.leaf 4011014010810401061004076710004009914009814009714009610))))))
 (.node 16 (.node 8 (.node 4 (.node 2 (.node 1 (.leaf 404631401251401231404601404591404581401191000040115401144045440452407785401134045124045040777240449407762401111)
 (.leaf 40149140148140147104047514047414013614013410040132140131140130401292040128404652401271))
 (.node 1 (.leaf 40164404972404961401624049524016140160404944081240000404891004080110401514048420401501)
 (.leaf 401794017840177405114040176405092401751405051040173401724017140503440170140169405012401681040167401664049830401651)))
 (.node 2 (.node 1 (.leaf 4052940847204052740845240844140843140842408412040840140839408382408371408364083524083410401824051440833340513408322405121)
 (.leaf 40862408612000405384085840857340856140855140535408542405341405331004053240850240849140530408482))
 (.node 1 (.leaf 4055914022640225405584055640040872100408701408694086824086710405484054640866408654086450408631)
 (.leaf 40893100405711040888100040567408842000402304022940561408804087950))))
 (.node 4 (.node 2 (.node 1 (.leaf 40910409092409081004025640255405874090644058640905409043040903140902409012000004057910)
 (.leaf 406091004027214027114060240920204091910405984091740916300040913140595409122409111))
 (.node 1 (.leaf 40625409404093930000000000406121406111402824028140280300)
 (.leaf 4095510403084030740953300000406324094724063140946240630140629409454094330040295406262)))
 (.node 2 (.node 1 (.leaf 40327406572403261403254065524032410403221406511403201403194031824031714064510040313140643140311406422)
 (.leaf 4034240671204098714033940670204033714033640667200040332104033010403291403281))
 (.node 1 (.leaf 40689140688100403541004035140680240679140678100040676140343406732406721)
 (.leaf 40374403734070330403711403701403694069920410151406981403664069524069441010240693140362406922403614069120040358406902)))))
 (.node 8 (.node 4 (.node 2 (.node 1 (.leaf 40390407194103741036440718410354103434038810407151403854071420403834071224038140711204038010403784070724037614037510)
 (.leaf 40406407352004073214104814073014040014072814072741043200004072410407201))
 (.node 1 (.leaf 404271004074810410631040414407444106134074314074241059200407411040737410542407361)
 (.leaf 40768410832041081140438407654108034043740764410793404361404351404344076124076041076240433100000)))
 (.node 2 (.node 1 (.leaf 404571404561404551040453407792000407754109224077441091240448407734109034044740446407723404454077124108714044310)
 (.leaf 408001404831404761000404731004046414046210404614078620407841))
 (.node 1 (.leaf 411261404934049240811340491408102404901004080641120200041111411102)
 (.leaf 4083141146411453004083014082914051040828240508408272405071040506405044082230408201405021408181405001404991))))
 (.node 4 (.node 2 (.node 1 (.leaf 4116210408464116024115814115710411551411541041153411522411511411501411494114820411471)
 (.leaf 41178411772000405424085941174304117214117114117014116914085341168411673408521408511000))
 (.node 1 (.leaf 40881411954119434087810408764119124087541190240874411892405554087341188341187411862004087141185411843411831411821411811411801411791)
 (.leaf 40578140896100040892408902412041040889412024120134056940568408863412001000408831408821)))
 (.node 2 (.node 1 (.leaf 41225100040907104121910412181041216412152409001004089940897412134121240)
 (.leaf 406104092820040608409252406074092441238300040918412334123230412311409151409144122924122810))
 (.node 1 (.leaf 41256140942140941412544125334093814093714062110004061740934240616141246412452409291406131)
 (.leaf 406444096024095914064140640409563000040637406362406354095240950412654000000))))))))))
 (.node 256 (.node 128 (.node 64 (.node 32 (.node 16 (.node 8 (.node 4 (.node 2 (.node 1 (.leaf 406601406591040658409742409731406564097224065440971240653409702409691406521409671406504096624064940648409653406474064640964300)
 (.leaf 40675409912409901406741000040669409862409851406681406664066520406641406631406624066120))
 (.node 1 (.leaf 41007141006141005413202410044131924100314068741002240686410014131734068541000240684409994131541314440683409982406824099741312340681409962409951409941409931409921)
 (.leaf 407094070824070610407051407041407021407011407001000410141406961410121410091410081)))
 (.node 2 (.node 1 (.leaf 407251407231407224103941352341038413512004103341349413484134740407174071641031304102914071341028241027141026413412407104102520)
 (.leaf 40740140739410562410554105341368341052141051141050413654136430041049410472407314104641361340729410452004104214072610))
 (.node 1 (.leaf 40754410702000410641000410624106041375341374413732000)
 (.leaf 41089141086414022410851000413984139724108210040763407622000407594075820))))
 (.node 4 (.node 2 (.node 1 (.leaf 40788140787411022407851411001410991407831407824109724078114078041095200004140741406200)
 (.leaf 411191414371000000004110914079014078910))
 (.node 1 (.leaf 4082141134240819411332041131104081614081514081414081310004080941124240808411232408071)
 (.leaf 414711414701041468141467141466414652414641411441004114314114214114114082640825240824408234113730)))
 (.node 2 (.node 1 (.leaf 4116110004115910000414721)
 (.leaf 4150341502204150114150010414981414971411764149624117510411734149324149210000))
 (.node 1 (.leaf 40885141197100411961411934151324119241512241511104150941508200000)
 (.leaf 41534104121414121141532415314153040040894100412071000412031415201)))))
 (.node 8 (.node 4 (.node 2 (.node 1 (.leaf 4155141550241230104154814122714122610412241412231412224154124122141540241220100412174153720)
 (.leaf 412434124124092610000041234100))
 (.node 1 (.leaf 4094941264240948104125941578240944412584157730004157541574241255415732412521041250140936412492409351)
 (.leaf 41281415992412804159824127914127814096340962240961100412731409584095741270300040954100)))
 (.node 2 (.node 1 (.leaf 4098214098114098014097914097814097714097610409754128924128814128741606416053412861412851412841412834160224096841282416003)
 (.leaf 41313104130914130810000040989104098841302241301141300140984409834129930))
 (.node 1 (.leaf 41013413282413251410111000000041318413162041634100)
 (.leaf 41030413434166334134241662200004102414102314102214102114102014101914101841017204101610))))
 (.node 4 (.node 2 (.node 1 (.leaf 413594167824104441358241357141356141355416752410414135441673341040413534167230416714167024135041669200041346416662410324134541665341344416642)
 (.leaf 410584169220041057413712413704168824136941367416873413664168620000413631413624136041680416794))
 (.node 1 (.leaf 410771410751000041386100000413781413771413761)
 (.leaf 4172310004140141719417183041399100000041078413942)))
 (.node 2 (.node 1 (.leaf 4142310411041411031041416141101414152414144173124109841413204109641411204140914109441093414083)
 (.leaf 41122414412411214144024143914143814175014143641749241748100000000417401))
 (.node 1 (.leaf 4145514113641135414543041452141451141132414502004113041129411284144941447504112710411251000)
 (.leaf 41784141469417832000000041463141462141461141460141140141138414562))))))
 (.node 16 (.node 8 (.node 4 (.node 2 (.node 1 (.leaf 414871004148614116641165241164411634148230000004147714115641476417903414751414741)
 (.leaf 418184181724181641815204149941814418133000041494141808104149141806204148910))
 (.node 1 (.leaf 4152141519418354183444151814119941198415173041830104151514151410415104182524182414182310000)
 (.leaf 41535418494184830041846141533418452004121014120810041524100415231415221)))
 (.node 2 (.node 1 (.leaf 41549418622000041544104154241855241854141853141539100415384153641851418504)
 (.leaf 412484156824124741567415653415641412444156320041242415622415611412404156041872341239415592415581415551415541412354155320))
 (.node 1 (.leaf 41585418962415844189524158314126341262412614158241580418944189374126041579418923000041257100004125110)
 (.leaf 4160110419111419091415971412774159624127641275241274415942041592141272412714159141589441588141269141268104126741266415863))))
 (.node 4 (.node 2 (.node 1 (.leaf 412961041295141294412932041292141291141290416082416074191920419181419171041604419162416034191420)
 (.leaf 4163214131141631241310416304162830004130614130514130414130341621200041619141298412972))
 (.node 1 (.leaf 41327141326416442413241416421413234164124132241321416403416391004163610000)
 (.leaf 419764197541974341661419732416601419721413401413394165741969341338141337141336104133541334241333141332141331141330413292)))
 (.node 2 (.node 1 (.leaf 41681419922041677141989104167441987200041983100041668419804197934166710)
 (.leaf 416951416944200624169314200510041372416912416901416891419991416854199841997341684141683100416821))
 (.node 1 (.leaf 41396413952041393413922417101413914170920004138714170414170342012200000)
 (.leaf 417271414104172620417241004140541404204202814202742026241717141400417162000417141)))))
 (.node 8 (.node 4 (.node 2 (.node 1 (.leaf 41424100414224173724141710417321004141210)
 (.leaf 4144641761241760141445414442414434144241758417564417554206024175414175310041752141751100000))
 (.node 1 (.leaf 41776141775141774141459414584145734177010041769141453417662417651417644206924206810414484176320)
 (.leaf 41478417914209630004178914178814147341787420903417864208942088304178242087420863000000)))
 (.node 2 (.node 1 (.leaf 4180710004149041805421083414884180441802421074418011418001417991414854179824148441483417973417964210024179542099241481417944209834148041793241479417922)
 (.leaf 4182242127242126142125141507415064182142124441820141505415044181934212142120200041812421174211634181114181014180910))
 (.node 1 (.leaf 418391000418371418361418334213824183242137421363418311000041828141827141826421292)
 (.leaf 41852421564215542154400004215142150204184710004184310))))
 (.node 4 (.node 2 (.node 1 (.leaf 418731004186814186714186614155241865241864421662418634216520418614216442163341860141547418592415464154524185714154341856421583)
 (.leaf 4188314157241571415704188240415691004156641877241876141875100418741))
 (.node 1 (.leaf 4159314190414159041901200415871000042197421962041891104188910)
 (.leaf 41915422172041913422154221434191242213204191042212422114221040419081415954190720)))
 (.node 2 (.node 1 (.leaf 4162541624241623416224193630041620141932141931141618416172416161416151416144161324192414161241611241610141609419212419201)
 (.leaf 4163841951241637100004194310041629100416274162620))
 (.node 1 (.leaf 416554226924165441653241652141651141650100416494164824196014164741959241646416454195834195714164341954200)
 (.leaf 4198214228410041978141977100422771042275104165914165814165641968422713)))))))
 (.node 32 (.node 16 (.node 8 (.node 4 (.node 2 (.node 1 (.leaf 4230214200042301204199642299241995100419944229642295422944419934199124199042293204229114167614198841986422893419851419841)
 (.leaf 4201410000420071000042002100))
 (.node 1 (.leaf 42032423302417211004232614202514202442324241715104202314171314171214171142020200)
 (.leaf 4204714173914173810041734141733420412420401041730104172941728420364233544203514203442334242033423334233230)))
 (.node 2 (.node 1 (.leaf 42065141759420642420631042059142058142057100420561420551042053142052142051423544235330)
 (.leaf 417731417724177142077420754420741004176842073241767420702004237110417624206742370423694420661))
 (.node 1 (.leaf 4209542398423973420941420931420921420914239424239214239142390200041781417804208534208414177941778241777420822)
 (.leaf 421101421091421061421051421041421031421024240524210110004209710))))
 (.node 4 (.node 2 (.node 1 (.leaf 42128424314243034242942428200042123424262421224242424211942423242118142421104211514211442418424173421131421121)
 (.leaf 4183810421411421404244224213942441424403004243814213514182942134421324243640042131424332421301))
 (.node 1 (.leaf 421591042157100042153424572004215242455424543000041844421472421461)
 (.leaf 4217510004217114217014216942473242168142167100004216242466424653041858421602)))
 (.node 2 (.node 1 (.leaf 418904219120418881418874219042491342189141886421884249042489441885418844218742185424885004188142184241880421832418791418784217920421771421761)
 (.leaf 4220914190641905422083041903141902141900100418991418981418971042195424982421941421931421921))
 (.node 1 (.leaf 41922422232422221422211004222010422184251920422161004251542514242513100)
 (.leaf 419371004193514193441933422343422331419301041929419282419271041926419252422261419231422241)))))
 (.node 8 (.node 4 (.node 2 (.node 1 (.leaf 41953419524225330419501419494225224194841947204194614194514194442245204194214194114194042241241939419382)
 (.leaf 419701041967142570141966141965141964141963141962422632419611004226114226014195642259425613419551))
 (.node 1 (.leaf 42287425904258934228614228510422831419814228242585342281142583104227810042578142276422742425761419711)
 (.leaf 423031420011000423004229842600300004259742596200422924229042593342592142288425912)))
 (.node 2 (.node 1 (.leaf 4202242021423213423201042019420182000420134231420000423071004200442003423063)
 (.leaf 4203042328426284262744202910423254262520426231426221423231423221))
 (.node 1 (.leaf 420481423461423451420464204524234114234010042039420384233734203742336426353)
 (.leaf 423671423661420624206142365342362142361100423601423594265524205442358426544265344235714235614235542652426513426501))))
 (.node 4 (.node 2 (.node 1 (.leaf 42081423852420801420791420781042076142377142376104207214207114237210000)
 (.leaf 423994269524269410423964269342692342395426912042393426892042687100423884268424238742683242083423862))
 (.node 1 (.leaf 4241510042111424142424131424101004240714240610424041424034270024240214240114240042698426973)
 (.leaf 42729142432427282427271427261427251042427427244272330424254272242721342422427204271934271814242014241942717200424161)))
 (.node 2 (.node 1 (.leaf 42143421424244630427401424434273924273810427361424391427354273424243742733200427301)
 (.leaf 424631424621424611042459142458104245610000421494245124214810424501))
 (.node 1 (.leaf 42475142474427712042472427702424711424701424694276724246814246742765242764104216142464427623)
 (.leaf 42496424942000000000424861000421781))))))
 (.node 16 (.node 8 (.node 4 (.node 2 (.node 1 (.leaf 4251214251114220742510204220614220542204425053422031422021422011422001421994250020421981424994249720)
 (.leaf 4222542527242526142525428182425241000422194252020000042516100))
 (.node 1 (.leaf 42240142239142238422372422361042235142535142232425342422311422301422291422281422271425281)
 (.leaf 428534285224225842560242257422564255942851442255425582422544255724255610042251422502422491422481422471422461004224442243422423)))
 (.node 2 (.node 1 (.leaf 4257742870428693422731422724257542573428664004227042572242268142267142266142265142264104256514226242857200)
 (.leaf 428841428831425884288124258714258614287914258410425824287642875342280422792425801004287110))
 (.node 1 (.leaf 4230542606428993423044260524260410004260214260142599428933422971428911425981425954289042889342594428882428871428851)
 (.leaf 429171000429141042319100042615142315100423084260920))))
 (.node 4 (.node 2 (.node 1 (.leaf 4263914263814233942338426373426364293020426341000042331100426264292024291910)
 (.leaf 4294414294314264910000000))
 (.node 1 (.leaf 4237514237442373426703000004236810042663142662142364426612000)
 (.leaf 4298342982242688429812042389426864298034268542978242977104268242976242384423834268142974442382426802423814238042679426774297254297114237842675429704296944267414267310)))
 (.node 2 (.node 1 (.leaf 4270314270214270110426991429934299220426964299120429891429881429874298620429854298420426901)
 (.leaf 43014143013143012142716430112427154301043009342714142713142712100427111424124271043003342411427094270743002430015042409424084270543000429995427041))
 (.node 1 (.leaf 424354243442731300430231043021143020143019143018104301610)
 (.leaf 42749142453424522042748104274410042445427434303743036442742430352424444274143034430334000)))))
 (.node 8 (.node 4 (.node 2 (.node 1 (.leaf 427661430601430581004276342761430574305644276043055430543000424601042754100)
 (.leaf 4248710000042773142772104306643065242769142768430632))
 (.node 1 (.leaf 4250714250614250442797204250314250214250142795200427921427911427904278824249510424931424921)
 (.leaf 428151425224281443110342813100428121425184251742811300000428051428041425091425081)))
 (.node 2 (.node 1 (.leaf 428311425384253742830342536142828142827142533142532142531142530142529428222428214311724282043116242819104311443113242523428162)
 (.leaf 425554284943144342554428484314334255342847242552428464314243141442551428452425504254920425481425471425464284020425454254424254342837242542425412425401425391))
 (.node 1 (.leaf 4257110425691425681425671425661042564428582425631425624285642854300431481431471042850431452)
 (.leaf 425811428731425794287220431671431661428684316524316443163242574142865142864431612))))
 (.node 4 (.node 2 (.node 1 (.leaf 42603428962042892431892004318614318510428864318324318210042882100)
 (.leaf 4262042619204261842911200042907100429024319824290114260842607429003042898142897431942431931))
 (.node 1 (.leaf 429271426334292624292543222243221142631142924429222426294292143217300042624432142004291614262110)
 (.leaf 43241143240143239142942100426454293720426441042640429332429321429311042929432252429281)))
 (.node 2 (.node 1 (.leaf 4266614266514266410004295514266042659429543426581426571426561000429471429461)
 (.leaf 432741432731429751432714327024297343269243268143267142968432664326534296710426721426711042669429622426684266720))
 (.node 1 (.leaf 43290432892429904328843287304328614328543284204328310043280104327843277200429791432751)
 (.leaf 43007143006100043300143299432982043297142998142997142996432942429954329324299443291200))))))))
 (.node 64 (.node 32 (.node 16 (.node 8 (.node 4 (.node 2 (.node 1 (.leaf 430224331943318433174043316100430174331420430154331120043308433072043008433062)
 (.leaf 4303910043038143333433322043331433302042737100430281430271427324302624302543323433223430241))
 (.node 1 (.leaf 433531433521430534335024275943052433494334844275842757430513430501427564275543049343048100427534275243047342751430462427504304543341433404430441430431430421)
 (.leaf 433691000430671433631433621430644336124336043359243062143061104305943356433553000)))
 (.node 2 (.node 1 (.leaf 4308714278914308510427874278643081342785142784104278342782242781142780427792000)
 (.leaf 4280842807431053428064310443102300431011431001428034280242801430994428001427991042798143386142796430932430901427944308920))
 (.node 1 (.leaf 42823431192431184341224341143410204311514340814340714281743112434063431114340543404304310943403243108100431071428104280943106433994)
 (.leaf 428391428381431321428364283524283414283343129243128434222428324312743421434204431264341924282914312414312314282614282514282443120434133))))
 (.node 4 (.node 2 (.node 1 (.leaf 428551431511000043146434382000004284442843428424314044284110)
 (.leaf 43459104345810428674316243456300042863431602428621428611428601428594315643154300))
 (.node 1 (.leaf 4347714347614318114347410043179431772428804317624317510428781428774317220431701428744316920)
 (.leaf 43197143196100000434844348324289542894431914348244319043188200431871431841)))
 (.node 2 (.node 1 (.leaf 4321543508242918143213435062004291543212243211104291314291210004320414320310)
 (.leaf 432281043226104322410000435121432201435101432161))
 (.node 1 (.leaf 42951142950142949142948100429451432424353020435281000000)
 (.leaf 429664296524296442963204296110429601429591429584325624295714295610004295342952432503)))))
 (.node 8 (.node 4 (.node 2 (.node 1 (.leaf 432814357043569304327943568243567435662004356414356343562243561143272104355810435571435561432644355543554435534)
 (.leaf 432954358543584300432921000435794357824357710000000))
 (.node 1 (.leaf 43313436012433124331043600343309143598143597104330543595435943433044359324330314300514330114300414358810043296435862)
 (.leaf 430304302943327433254361643615643324436142004332143611243320143609143608143607143606143315436052000)))
 (.node 2 (.node 1 (.leaf 43343143342436322004333914333610043335143334436222000430324303143328436184)
 (.leaf 43358143357100433541004335143642204364014363914334743638243346100))
 (.node 1 (.leaf 4308443083243082104308014307914307810436601043366100043653100)
 (.leaf 433931430981430971430964338824309514309410043091100430881043086100))))
 (.node 4 (.node 2 (.node 1 (.leaf 43684104368214368114368014340243678243401143400100043398143103433972000)
 (.leaf 43130434234370034369943698243697100431254341824341714341643692243122434152431214341420436891043687143409436862436851))
 (.node 1 (.leaf 43139431382043137143136143135434272431344313343426437034434254370224313143424437013)
 (.leaf 43455104345310431591431581431571004315543448434463431534344520431521431504314943442300)))
 (.node 2 (.node 1 (.leaf 431784347020004317443466243173434652437411431711043461143168100434571437331)
 (.leaf 431951043192100437581004347810043475100431801))
 (.node 1 (.leaf 43505143504143210143209435022000043497100437701000434881)
 (.leaf 43227435192435181435171004322343516243513437922043790143789143511437882043509104378410))))))
 (.node 16 (.node 8 (.node 4 (.node 2 (.node 1 (.leaf 43247143246432454353434324443533243243435322043809143531104352943806438053000000435201)
 (.leaf 432634326243261304326043259243258104354510432551432544354424325343252204325110043249432482))
 (.node 1 (.leaf 43846100432761000004356043838438373435594383620438351438341438334383220)
 (.leaf 435831435821435811435804385820043857438562435764385520000435711432821438484384720)))
 (.node 2 (.node 1 (.leaf 4359943878438773004359614387414387314387214359243871243302435912435901435891043866438652043587438644386330)
 (.leaf 436121043610438882043887143886143885104360443884438833438821043603143602438792))
 (.node 1 (.leaf 436334391143910300004362610043625143624143623436214390030043620143619436174389630)
 (.leaf 436451043643439212043641439204391930004363743917439163004334543344200))))
 (.node 4 (.node 2 (.node 1 (.leaf 4338710004365910043654439332043652104365014364910)
 (.leaf 436794396120436771436761000043396436732433954367224339410043392433912433901433891))
 (.node 1 (.leaf 436951436944397743976343975104369343691243690439722043688143970143969439682043967100436834396524396443963439623)
 (.leaf 4343643713243435437122434344343320434324343120434301434294370424342810000043980143696439782)))
 (.node 2 (.node 1 (.leaf 4345114345014344910437251434471000434444372024344343719204344114344043439439973437154399624343743714439953)
 (.leaf 434681434674374220434644374024373914346343738243462437372440191043460104373410434541043452437282))
 (.node 1 (.leaf 43757104348143480434794375540437531000434734374944031304347214347143746243745143469437442)
 (.leaf 434891043487437632043486437612434851)))))
 (.node 8 (.node 4 (.node 2 (.node 1 (.leaf 440721437914407124407044069243787104378510004378310435031000)
 (.leaf 43807144088440872044086100004379744078243796143795143794100))
 (.node 1 (.leaf 435464382320004354343542243541104354043539243538438172435371435364353543813343812143811440944409334381010438081)
 (.leaf 4383910441181441171044116144115441142043831143552438302043550435494382834354843827243547438262)))
 (.node 2 (.node 1 (.leaf 44138100435751435744385124357343850243572438492000441291004356543844200)
 (.leaf 44154441532438701438691438684415124386744149204414814414714414644145243862441442438611438601438594414120044140441392))
 (.node 1 (.leaf 4416944168204416614416510043881143880441612043876441592438751441574415620441551)
 (.leaf 439041439034418544184343902143901438994418230043898143897438954417844177443894100436134389144173343890143889441724417130))))
 (.node 4 (.node 2 (.node 1 (.leaf 4391810441981441971043915441964419534363643914243635436344391344194441935441921004363143630439093000)
 (.leaf 4421814421610439321439311043929143651439282439271436484392624392544207442063436474392424364614364443922200))
 (.node 1 (.leaf 4367043953442373436694395244236343668439514423534366743950442343436664394920436654366420439431000439411442211442201442191)
 (.leaf 43966442524425130442501442491442481044247442462043958104367510436741043671439542)))
 (.node 2 (.node 1 (.leaf 43982143981100442651439794426424426314426114397444260243973442592442584425720043971442554425430)
 (.leaf 4371843999243717143716104428114428010437114371043994343709104370814370743706243987143705100))
 (.node 1 (.leaf 437324373124373010437294401220437274401024400914372610437244372344006343722440052437214400420440021)
 (.leaf 4375044033204374844029243747100437431000440214430624402014430414401814373644302243735440162)))))))
 (.node 32 (.node 16 (.node 8 (.node 4 (.node 2 (.node 1 (.leaf 4404614376410437624404324404214432714376043759200043756440384403634375410437524375120)
 (.leaf 44064143782437812000000000004405110))
 (.node 1 (.leaf 4407914379810004407614379344073200004434710437864406844066300)
 (.leaf 44095104437614437510044091144090144089443702004436810000)))
 (.node 2 (.node 1 (.leaf 441131438294411220004382514382410438221441041438211438204381920438181440991438164381543814440984409644380443797)
 (.leaf 441281438454412720438434412524384244124243841438404412334412214412114412044401244119144399104439844397200))
 (.node 1 (.leaf 4414344426444253441421004442210004385443853244134143852441334441534413210000)
 (.leaf 44158144440100444371444361441524443544434304415044433200444301444291444284442720))))
 (.node 4 (.node 2 (.node 1 (.leaf 438931438924417520044170100044449444482441671000441634444424416244160444433)
 (.leaf 441901441871004446714446610441834418144465444644446350044180444622044176444592))
 (.node 1 (.leaf 44487144205104392344203200000000000)
 (.leaf 4394244224244223445032442221445021004449814421744215204421310442111439301442091442081)))
 (.node 2 (.node 1 (.leaf 439561439554424020000004394843947442333439461044510144509144508100)
 (.leaf 44253100445311445291044528144527144526144525143960439594424530043957442422))
 (.node 1 (.leaf 439864427124398544270243984143983442682442671442661004454414454310442624454120044538144256445372)
 (.leaf 4400344289204400144287244000144285143998100445611044279445582439934399244278343991143990439894427434398810)))))
 (.node 8 (.node 4 (.node 2 (.node 1 (.leaf 44017443012044015144014144013104401110442951442921440081440071442911445691)
 (.leaf 44035144034144032100440304431424431344594445933440284402744312344311144026440254431030440244430824402344022443073000))
 (.node 1 (.leaf 4433510044334100440451440441044326104404144040440393004403710)
 (.leaf 440741004435044624200044067144345144065104406310000)))
 (.node 2 (.node 1 (.leaf 44369104436710004464114464010044357104435514407710440751)
 (.leaf 44103144102443844466644665404410044382446644466344438114437844661244377144658100440921443741044372100))
 (.node 1 (.leaf 44400446812044680104439610443941441114411024410914410814410714410644105204438510)
 (.leaf 4413144130444143000004412610004440414440310))))
 (.node 4 (.node 2 (.node 1 (.leaf 4443144714244712100000444244470744706300444231004413744136444204441840441351)
 (.leaf 44729144447144164444462444454472624444244725244441144723144439447222444384472120447191044718447174471630444321))
 (.node 1 (.leaf 44747447462000441794446144743447424444604445844741344457447404473934445614417414445444736200444511004445044731447303)
 (.leaf 44199444802444791004447644758244475104419144473244472144469144186444682447501000)))
 (.node 2 (.node 1 (.leaf 44495144214444942442124449344777304421044491447753444901444891444881044486144204444854476830044202144201442004448130)
 (.leaf 4450714422544506244505144504100004449944497244496447802))
 (.node 1 (.leaf 448111448101448091044807144244445242442431442411004423944238445194480144451810000)
 (.leaf 4454210044539100445364481824453514453444817244533144530100))))))
 (.node 16 (.node 8 (.node 4 (.node 2 (.node 1 (.leaf 4427714427644275200442731442721445501442691445481000445461)
 (.leaf 442964457520044294442934457430445721445711442901442884456720442861044284448472442831442821448441))
 (.node 1 (.leaf 445924459024430944589200044305104430310445811445801443004429920442981442971)
 (.leaf 44325144605448872443244460424432314432244321443204460244600448836445991443194459844882344318445972443174459644881448804443164431544595344878100)))
 (.node 2 (.node 1 (.leaf 443461443441443431443421000000044329443282)
 (.leaf 446311443564463024435444629204435344352446273446261443514462520))
 (.node 1 (.leaf 443734465644941304465414437144653204465114465014464910000000)
 (.leaf 4439044389446734467144959449584495774467014438844387446694495544438644668244667100449511000446624466044948449474494654465910446571449431))))
 (.node 4 (.node 2 (.node 1 (.leaf 44407446892444061444051004440214468310004467914439510446761443934439244391446754496150)
 (.leaf 4442144704204441910444174441624469710044413144412444112044410104440944691244408446902))
 (.node 1 (.leaf 4500445003244715450022044713450004499930004471114470810000)
 (.leaf 444534445244734344733450204501934473210000044728450144501334472745012244724450114501030004472045007450063)))
 (.node 2 (.node 1 (.leaf 44751450372000044748450344503334474514474445031245030100450274502620447384502524445544737450243450231)
 (.leaf 4476745054450533444844448344766344482144764100004447844477447614475945046450456044757450442004475610450381))
 (.node 1 (.leaf 4450144500447833004478214478144779450663447781044776104477414477345060244772144771104476910)
 (.leaf 445174451644800450864508554451545084244514100000000044786100)))))
 (.node 8 (.node 4 (.node 2 (.node 1 (.leaf 4453244816244815451002448141448131000044808104452344806244522144521445204480444802400)
 (.leaf 44549144547448302451174511624482814454510004482314454010448221448211448204510624481910))
 (.node 1 (.leaf 4456544564244846451332445631445624513120445601044559144557445562044555144554144553144552144551448332448321)
 (.leaf 4486214457944578204457714457644860448583004457310448551445704485420445684485224456610)))
 (.node 2 (.node 1 (.leaf 4516710448771448761448754516124459144874245160451592448721445881004458744586244585445842044583445822448641)
 (.leaf 4461310446071044606100446031446014488420000))
 (.node 1 (.leaf 449081044906100446231446224518724462144903244620104461914461810)
 (.leaf 452121000000000004463244913245197451962))))
 (.node 4 (.node 2 (.node 1 (.leaf 4522814494214522610044940144652100004493410000)
 (.leaf 45245452442449604524324524214495645241200044952100044950452342449494523324523114494545230452293449441))
 (.node 1 (.leaf 449771449764525924497545258244688449744525734468744973244686446854497234497114468444970244969452522446824496845251304496614496514467844677449644496245247500)
 (.leaf 4470510447034470224470114470014469914469844984244983104469610446954469444693344692100)))
 (.node 2 (.node 1 (.leaf 4529114500545290204528814528714500145286452853004528445283200447104499724470910449921)
 (.leaf 45308145022144735450214530645305400450181004501714501614501545298452973004529545294245009145008452922))
 (.node 1 (.leaf 4532310453211450364532045319344749450352450324531720453151450294531424531310450281453101453091)
 (.leaf 4477045055200450521447654505124505010447634476224504714533114533014532945328200450431450421)))))))))
 (.node 128 (.node 64 (.node 32 (.node 16 (.node 8 (.node 4 (.node 2 (.node 1 (.leaf 44785450702447844506920045068145067453502004506214506110450594534324505814505710)
 (.leaf 450871000000450801447941447931447924479120044790144789144788447872))
 (.node 1 (.leaf 4510310004510110448124509945382345098145097453802450964537924509510450931044805144803450882)
 (.leaf 45118144831100448291448274511520448264511324482514482410000451041)))
 (.node 2 (.node 1 (.leaf 448504484924513414484814513245415200448451044843448424512930044839144838144837144836144835448342)
 (.leaf 448654515045433344863454322451481044861144859451452004485714485645143200448531451391448511))
 (.node 1 (.leaf 448791000044873451584544234487145157454403004487044869448683448671448661)
 (.leaf 4490045185454623451841448991000000000004516910))))
 (.node 4 (.node 2 (.node 1 (.leaf 45482145481100449124491145195454744547354519414491044909245192145191100449054519024490410449021449011)
 (.leaf 4548910000449231449221000000454831))
 (.node 1 (.leaf 4551114523245510455093000045225145504104522414493944938452233449371449361449351452191452181)
 (.leaf 44954452372449534523620000)))
 (.node 2 (.node 1 (.leaf 4497914497810000045535145256145255455342452541000452501)
 (.leaf 4499614499544994452773449931449911044990449892449884527224498745271204498644985200004498244981449803))
 (.node 1 (.leaf 45296455752452934557345572300000004556510455644556320044998452822)
 (.leaf 4531110045589455882453074558724558645585200453031453021453011004530045579455783452991455761)))))
 (.node 8 (.node 4 (.node 2 (.node 1 (.leaf 45327100453224560245601300455991004531845316455963004559414531245593455913)
 (.leaf 4534214534114505645340245339100453361000450494504845332304561010456081))
 (.node 1 (.leaf 4507614536014507545074450734535945357456394563845637845356456362450724507145355300004535214535145349456314563044506545064453484562844506345347245346456272453454562645625345344456242)
 (.leaf 453771450924537624509145375204537110045370145369104508145365200450794507820450771)))
 (.node 2 (.node 1 (.leaf 451074539145670345669104510545390204510210004538414538110000450941)
 (.leaf 45124145123145122145121451202045119100453991045114104511245397453953451114539424511045393456723451094510845392456714))
 (.node 1 (.leaf 4514214514110451401451381451374542045691345136454192451354541845416304541410045130104541110)
 (.leaf 45441104515614515545154245153104515245151200451491045147451464543045428400451444542520))))
 (.node 4 (.node 2 (.node 1 (.leaf 4517014516810451661451651045164145163145162100)
 (.leaf 45471457372451934547020454681004546714518945466245188145186454644572934546310454611000))
 (.node 1 (.leaf 45487100000045744145743104547510457391454721)
 (.leaf 45222145221455012452204550020000000000)))
 (.node 2 (.node 1 (.leaf 452404523945238455194551745784457837004523510045513145512457764577530455084577445773300452274550720)
 (.leaf 455364580124580014579914553345797245253455324579630455301452494552924552814524814524610000))
 (.node 1 (.leaf 45551145550145270455492045269145548145268145267452664554634526545545204526445263245262145261145260100)
 (.leaf 455671004556645831200045562145561145281452802452794527845557300452764527545554304527445273455523))))))
 (.node 16 (.node 8 (.node 4 (.node 2 (.node 1 (.leaf 4530445583458483455821000458441004557745841204583914557410045569145289455682)
 (.leaf 455981455974559545861300004559245590458574585640045853458522045851145584458502))
 (.node 1 (.leaf 45335456152045334453334561334561245878245611458762045609458754587430004560714532614560310045600458662)
 (.leaf 45632145629458952458944589320004589045889245623145622458884588734562145886245620145619145338456182045337456162)))
 (.node 2 (.node 1 (.leaf 456481045364104536345362204536145640204590414590314590214563545901459003004535445353456343)
 (.leaf 45385100453831456604592124565945920245658459192456574591824537845656245655145654145653145372100))
 (.node 1 (.leaf 4540214540145400456783045676145398104539610045933459322045668459314593030045389453884566534538745386456643)
 (.leaf 4542414542314542214542110456924569045951304541714568945687200454131454121000))))
 (.node 4 (.node 2 (.node 1 (.leaf 4543945438457123457091454374543645969345707145435454342457051045703145431457022045429145701456992454274569824542610)
 (.leaf 45727459812457261000004544810454474544620000))
 (.node 1 (.leaf 4574546000245999104574010045993145736459924599130045469457352457341004546514573045728459853)
 (.leaf 460101045754145753460082454881045748145747100457461)))
 (.node 2 (.node 1 (.leaf 4577746030460293460281460271457724602646025300455064550545771304550314550210045765145499454982454971454961)
 (.leaf 455274552645792345525145524145523145522145521455202046037145782460362455164578124551545780245514457794603346032400457781))
 (.node 1 (.leaf 45543145542458082455411045540455394553830045537458022460531046052145798146049104579510)
 (.leaf 45560455594582534555845824458223045556145555458212045553458172458161458154606824581414581310455471458124606524581146064245544458102)))))
 (.node 8 (.node 4 (.node 2 (.node 1 (.leaf 458404609320455711455704583520000000004582710)
 (.leaf 4585514585446108200004584914610214584710455811455801000458421))
 (.node 1 (.leaf 456061004586814586745865461193000045862458604611430000)
 (.leaf 4613914588546137200045617145880145614458794613246131446130145877146129146128104612610)))
 (.node 2 (.node 1 (.leaf 4590514615546154204615314589946152245898145633458972004589646147246146145892100046141461402)
 (.leaf 4616610004591614591510456491000456431456424564145906300))
 (.node 1 (.leaf 4567445935461844618344567345934204618114617910004566745666204592714566345924204566245661461713459231459221)
 (.leaf 45952459502004568814568610456854594624568410459411456794594024593914567714593714567545936461853))))
 (.node 4 (.node 2 (.node 1 (.leaf 459661457064596520457041004596210457004596045958304569714569645695459573459541456941456931)
 (.leaf 45983100000000000457111457101045708459682))
 (.node 1 (.leaf 4600110046245145995462442004599410004599046239245733459892457324598824573145987245986459842)
 (.leaf 457644576320000000000046003146002100)))
 (.node 2 (.node 1 (.leaf 46031462852462844628324628214628114628014602446279246023100457694576824576745766460213000)
 (.leaf 4579445793460473460461457914579020045789460422457884578724578646038245785104603546290246034462894628830462871))
 (.node 1 (.leaf 4580914606214580710458061458054580445803300000046051146048463022)
 (.leaf 4582646080246079100460764607420458201045819458184607034606910460674632224606646320200)))))))
 (.node 32 (.node 16 (.node 8 (.node 4 (.node 2 (.node 1 (.leaf 45843460952000046092145838458374583646091404583410458334583220045830460842045829458282)
 (.leaf 458594611224585846111463643461104636324610910046104146103104610146355246100104584645845460983460971460961))
 (.node 1 (.leaf 461271000458734587220461211046374146120461184637330045864145863461162461154611320)
 (.leaf 458914614346396346142463952463931004613846391246390146136463882458844613524588346134463874638644588245881461333004638310463811)))
 (.node 2 (.node 1 (.leaf 459074615820000004615110461494640246401346148464002004614546398463973461441)
 (.leaf 4592945928461773045926459252000046168146167104591710004616310))
 (.node 1 (.leaf 459451459441461891461881461871459381000461824643346432300046180100)
 (.leaf 4596114620846206464543459594620546453300459561459551462021459531046197104644514594945948461964619444594710))))
 (.node 4 (.node 2 (.node 1 (.leaf 464691464681459711462171459701462151459671462131004621214596445963462114645740)
 (.leaf 4648514624010000462351046231145982104623010000))
 (.node 1 (.leaf 4625314625214625114649610462501462491462461000004624246487464863)
 (.leaf 460194627324601814601714601610000465051000460111000)))
 (.node 2 (.node 1 (.leaf 4653114628610046527146526146525146524146523100046277146022462762460204627520)
 (.leaf 4630514605046304246301100460454630024604446043462973004604114604046039462933462921462914653546534300465321))
 (.node 1 (.leaf 46063104606146060246059146058146057146056146055146054100463061)
 (.leaf 460821460811000460784633224607746331246075463282046073463262046072460712004632110)))))
 (.node 8 (.node 4 (.node 2 (.node 1 (.leaf 46351146350146349104609410046346146345146090460894608846344463425460871460864634024608546339200460831)
 (.leaf 463651463621463614660524610746360246106463592461054635824635746600246356100046099463542))
 (.node 1 (.leaf 46382466254662430463804662324662210046125146375146618100004611710)
 (.leaf 4639946642246641104663946638204639446637246636146392146634104638946631204663046629204638546628466273463841)))
 (.node 2 (.node 1 (.leaf 4641514616546164204641414641314641014640914615746408466503461564640724664914640546648246404466474664634640310466444664320)
 (.leaf 464311000461784642920461764642524617546174464243464231461734617246422346421146170146169146418104641646659466583))
 (.node 1 (.leaf 462004619920461984644720461954644320046193464422000046186464352000)
 (.leaf 4646314621414646110004621046459246456146209464552462071466921462044645220046203146201464502))))
 (.node 4 (.node 2 (.node 1 (.leaf 46234146233146232104647610000046707100046216464642)
 (.leaf 4673814649510464911004649010000046238100))
 (.node 1 (.leaf 462701000465071004650610467501465031046499146498467412464974674020)
 (.leaf 46773146522467724677134627846521246520146519104627446517246516146272465152462711)))
 (.node 2 (.node 1 (.leaf 465431462994629820046296462954629446537446536467872467864678520465334678320046530467802465294677920)
 (.leaf 4631846317246316146315146314146313146312146311463102463091046308463072000046303465472465441))
 (.node 1 (.leaf 4633346576246575146330146329465712046327465692046325146324463232465651465641465631465624681320463191)
 (.leaf 4659214634846347465913004658814658710463414658546583300046338463374633630463351463341))))))
 (.node 16 (.node 8 (.node 4 (.node 2 (.node 1 (.leaf 46607146606466044685534660346854468533466021466011046599100465981463534635224659414659310)
 (.leaf 46875146874100463791000466171463724661624661546865246371463704661434636946613468623463684661224636746611246366466082))
 (.node 1 (.leaf 468911468901468891468881466354688724688646885246633146632468832468821000468794687824662610468761)
 (.leaf 46655146652100000046645468984689734689510468941468921466401)))
 (.node 2 (.node 1 (.leaf 464304667324667246922246428466714692134642746670246426466672000046420466622464194666124666046911246417104665710)
 (.leaf 46449466892464481046446104644446684466823004668110464361046434100466741))
 (.node 1 (.leaf 464624670124670010046460104645846695200000464514669120)
 (.leaf 46484464834672134648214671746965246481464804647930046478146477100046708100046706469562))))
 (.node 4 (.node 2 (.node 1 (.leaf 46737469852469841469831469821004672946976246728100046488467262046722100)
 (.leaf 467521465041000000000004673910))
 (.node 1 (.leaf 467691465184676824676714676647023246514467654702234651346764470213467631000000000)
 (.leaf 46782470404703930000465281004677410004702910467701)))
 (.node 2 (.node 1 (.leaf 46549146548467992467981465464679724654510004654246541467923046540465394653846790467885470441047043146784470422)
 (.leaf 4681514681410000465614656046811470674465594681024655846809246557146556146555146554146553465522465511465501))
 (.node 1 (.leaf 465824658146831304658014657914657814657710004657446573465724682446822546821104657046819204656814656746566468163)
 (.leaf 46597465964659534684414684310004684114659046589468403004658646837204658410)))))
 (.node 8 (.node 4 (.node 2 (.node 1 (.leaf 468641468634686147119471184004661046609468603468591046857471132468564711224711114685247110471093468511468501468494710620)
 (.leaf 47137146877147135147134104713210468734713124662146872246869100000))
 (.node 1 (.leaf 4715447153204689347151204715014714947148204714714714614714510468844714324714247141200468801)
 (.leaf 4690910466564690720046906100466514690124690047158204715714689947156246896471552)))
 (.node 2 (.node 1 (.leaf 4667714667614667514718114692514692410046669469192466684691847175346666469172466654691624666446915246663469144717134691310)
 (.leaf 466944694524669310046690469412004668846687246686469352466851046683469344693230000))
 (.node 1 (.leaf 472141000046953472082467034670220046699104669814669714669610)
 (.leaf 469774697547230346974472294722834672710046725469724722534672446971472243467231047222472212467204696747220346719469662467181469641467161467151))))
 (.node 4 (.node 2 (.node 1 (.leaf 4699014698947244200469881469874724024698610472381472374723620472341472334723220472311)
 (.leaf 467551467541467531046751100000000000))
 (.node 1 (.leaf 47024472612472601004702010000000000)
 (.leaf 472781470384727724678147037472764727544703610467781467771467761467751000047028100)))
 (.node 2 (.node 1 (.leaf 4705514679647054246795146794104679314679147049247048146789104728110470414728020)
 (.leaf 4707110004681247069247068104706614680846807470653468064706447302346805146804146803146802468014705834680010))
 (.node 1 (.leaf 4683014682914682814682714682646825470823047080146823100468204707620468181468174707320)
 (.leaf 46848468474710534684646845471043471011004684214709914709814709714683946838470964733447333504683647094204683547092246834468332468321))))))))
 (.node 64 (.node 32 (.node 16 (.node 8 (.node 4 (.node 2 (.node 1 (.leaf 4712114712047357200471171468584711624711547353247114473524735130000471071000)
 (.leaf 4713310000047127147126473654736430468681468674712524712414686610))
 (.node 1 (.leaf 4739010473881473874738620473851473841471444738324738210047140473792471394737824688110471361)
 (.leaf 4691014716514690814716310047162147159100047394147393147392147152473912)))
 (.node 2 (.node 1 (.leaf 4692714692610004692310469204717847176304717414717314740914740814717214716947406246912471682)
 (.leaf 469461472001469441469431469421471961469404719324693914693846937204693647191471893004693310471861))
 (.node 1 (.leaf 474461000000004695247440246951472064720434695047203246949472024743647435446948469472474331)
 (.leaf 474611474591474581047227146973104722647455247454146970469692469684722320000469631))))
 (.node 4 (.node 2 (.node 1 (.leaf 47473147243147242100047469474682472391474661472354746524746410474621)
 (.leaf 470264726424702510000000000000))
 (.node 1 (.leaf 47035470342470331470321470311470304726920047027472662)
 (.leaf 470574705620047293147292147053470524729134705114705010004704747046470454728547283547282100)))
 (.node 2 (.node 1 (.leaf 4707447311247072147309147070473082000473061473051473044752824730347526200473001047059472962)
 (.leaf 4709047089470883047087147086147085147084147083147319147081473182470794731724707847316204707710470751))
 (.node 1 (.leaf 47343475684756734734214734114710347102473403473391471004733820047337147336475592473354755820047332147331147091473302)
 (.leaf 471231047359475832473584758247581304735647579247355475782473544757747576304735047575475743473491000471081473441)))))
 (.node 8 (.node 4 (.node 2 (.node 1 (.leaf 4713847375475983473744759724737314737210047371100473661004758947588475873000)
 (.leaf 47615147614476132473891476121476111476101476091476084760720476064760524738114738047604204760214737747601476003473761))
 (.node 1 (.leaf 47407147170100047167147166474014762334716414739910000000)
 (.leaf 471901047188474202471871000047180147179474154741334717710000)))
 (.node 2 (.node 1 (.leaf 47207474412474381472054743747657347656147655147201474342047199476532047198147431147197147195147194104719247426476463)
 (.leaf 4745314745210047219104744547668476673047666147444100))
 (.node 1 (.leaf 4769410474711472414747024769147690204746710474634768624768510474604768320000)
 (.leaf 472634726247487477094047485147484147259474832474821000000047472476952))))
 (.node 4 (.node 2 (.node 1 (.leaf 472791047501147500147274474992472731472721472711472701047268474932472674749247490300)
 (.leaf 47295147294475192047517147516147290147289472882475111472874728647510477334000000))
 (.node 1 (.leaf 4731247535247534477582473104753320473071000475294775120475274775024774914730147525247524147299472984752330)
 (.leaf 4732947328475533473274755224732647551247325147324473232473224754624732114754414732047543200475401004731514731447313475363)))
 (.node 2 (.node 1 (.leaf 47566477902475654778924756447788477873475631475621475611000004755714755647779247555477782475541)
 (.leaf 47361147807478062478051475804780420004780047799200477971475721473484757124734747570247346473454756947793447792477912))
 (.node 1 (.leaf 475991478234782220475961475951004759414737014759010047812478112473634781020473621)
 (.leaf 4783610047832104783114783014782914760347828478273004782647825478243))))))
 (.node 16 (.node 8 (.node 4 (.node 2 (.node 1 (.leaf 4741047630247629100474054762824762747625247404474034762447848447402100474001047620100)
 (.leaf 47428476472474271478701474251474241474231474221474211004741714741614741410047412474112))
 (.node 1 (.leaf 4766210047661147439476602000000474321047430476512474291)
 (.leaf 4790014745714767914745610476761047451147450100047893478922000)))
 (.node 2 (.node 1 (.leaf 4769347913247692479124791130476881047907479062476871004768410476801)
 (.leaf 474894748820047926147708147707147706100000000))
 (.node 1 (.leaf 47505477272475041475031475021004772314772214749847721479393474974749647720479384793754749547494477193000477154771320)
 (.leaf 475224752124752047742204751810477401475154773924751447738247513475124773534773410475094773224750847731247507477304794934772947948247506477282))))
 (.node 4 (.node 2 (.node 1 (.leaf 47537104775710047532104753147530477543477534797124775210479671047748479662477474796520)
 (.leaf 47777147776147775147550475494777447772479915475484777147990479894475474777024776947988479873477681475454776724776647984204754247541477643004776314753947538477623))
 (.node 1 (.leaf 48009480082004800614778648005480043477851477844800348002347560477832477821004778114778010479961)
 (.leaf 475864758524802514802448023204780348022247802480214802030047801480182004779847796480164801544779548014480133000)))
 (.node 2 (.node 1 (.leaf 478211000047818147593147814100478134803124802910480271)
 (.leaf 478354783320000004804448043200))
 (.node 1 (.leaf 47633476324785534763147854247853480672000478491476261004784514762247621478443004784310)
 (.leaf 476491476481480811480801476454786920047642147641147640100476371476364763524763410)))))
 (.node 8 (.node 4 (.node 2 (.node 1 (.leaf 4809914788610000476594765847881300047877480882476544787620476521047650478742)
 (.leaf 47682147681479012000047678476772000481051481041000))
 (.node 1 (.leaf 47914100481181479101476894790948117304811514790848114200)
 (.leaf 4815048149247718477174771647936479344814860047714479332479321477121477114793024792914771047928481413479271047925147705479244813634792310)))
 (.node 2 (.node 1 (.leaf 4795148165247950100479471479464816024794510047726477252047724147941481532479404815220481511)
 (.leaf 479681000477464774547964304774447743204774110004773747954247736479532479521))
 (.node 1 (.leaf 47983481974819634776547982481953479811004776114776014775910479741477561477551000479701)
 (.leaf 4799948212247998147997104799514799414799348206482054820444799214820310047986482004819934798510))))
 (.node 4 (.node 2 (.node 1 (.leaf 48227482262477944801224822510048222148007482214822030482191482181482174821620480011480001)
 (.leaf 48030482422048028482402482391480264823824823714823614823510480194823320480174823120))
 (.node 1 (.leaf 480471480464826348262300000000478204803724825314781910480351480321)
 (.leaf 4785148063247850480622480611478474806048274347846480592480581480574827120048056104805214805114783448050200)))
 (.node 2 (.node 1 (.leaf 4786848291247865104786447863247862100478594785820478574785648069304828114806614785248065248064482792)
 (.leaf 47885480972480961478844788348095480934478821047880480924809034787948089247878482992004787514787314787214787148082200))
 (.node 1 (.leaf 478991478981000047891148313100000)
 (.leaf 48331100048328483272483261481214832524812010048119483222004811648320200)))))))
 (.node 32 (.node 16 (.node 8 (.node 4 (.node 2 (.node 1 (.leaf 479314814520481434835024814210481401481391483451481371048135100483341483331483321)
 (.leaf 48161481594836934815848368483673004794447943481573047942481554836330048359148358148357104835614814710))
 (.node 1 (.leaf 4796347962481763479611479604817224795910479584795720479564795520048164483722481634837120048162483702)
 (.leaf 4798047979479783047977481894839734797647975481883481874839524818614797347972200004796914818110481791481781)))
 (.node 2 (.node 1 (.leaf 48209148208148207104841348412484113482021004820148409484084840744819814840610484041000)
 (.leaf 480104822348431304843010484281004842548424248215148214148213148421100482111482101))
 (.node 1 (.leaf 4824148448248447148446100004823248441248440148230484392000482284843648435304801148224484333)
 (.leaf 48040482554846334803948038482543004803614825214825110004824510048244484524845134824310))))
 (.node 4 (.node 2 (.node 1 (.leaf 482681004826514804948048482643484721484711480454826148470348260484694846834825914825848467484663480424825724804148256484643)
 (.leaf 4807614807510048070148068482822000482781482771482764848424827548483484823048273148272484802))
 (.node 1 (.leaf 4809114830110048298148087148086104808548084480834829644829310048492100)
 (.leaf 4810314831410483104851224851110480984830920483051480941)))
 (.node 2 (.node 1 (.leaf 4853410048330148329104853048529485283048526148324148323104832110)
 (.leaf 481441048351485562048349485542483481483474855248551348138483462048344148343100000))
 (.node 1 (.leaf 48366485734857230483644857020004836248360200000048146483554856030)
 (.leaf 48177104817548174481734838348381500048171481702481694816848376348167148166100000485751)))))
 (.node 8 (.node 4 (.node 2 (.node 1 (.leaf 48193481924840148399448191481904839830483961048394100481854818448393348183148182148390148180148388100)
 (.leaf 48417148416148415148414104841048617486164861540000484054861120004819410))
 (.node 1 (.leaf 484271484264863248631304863048629200484231484224842048625300484191484181)
 (.leaf 48449148653486522004844514844414844348647248234484424864634864514843810048229486412004843448432486383)))
 (.node 2 (.node 1 (.leaf 484624866948668300048460148459100484541004845310486551484501)
 (.leaf 484781482671482661000000004846548672486713486701))
 (.node 1 (.leaf 482954829420048292100484891484881004828010486851048481486842486831)
 (.leaf 4830810483074830648508485064483044850548708348303485044870734850348706248302485024870534850148704248300485004870334849948702204829710))))
 (.node 4 (.node 2 (.node 1 (.leaf 48527104852514852414852310004831910004831510485151487151)
 (.leaf 485371485361485354873624873514873414853214853148732200487301))
 (.node 1 (.leaf 485611487571483544835348559487564483524855824855748754204855510485531000485491000)
 (.leaf 485714877124877014856914856848767248766148765148567104856548763248564100)))
 (.node 2 (.node 1 (.leaf 483874838648592304838548590248384148382485882048380148379148378148377485812483754858048779348374485792483734857824857748776248576487742)
 (.leaf 48403148402148605148400104860214860110048600104859814839248391485973485961483894859520))
 (.node 1 (.leaf 4862414862314862214862114862014861948816248618148815148614488144881348812404861210000)
 (.leaf 4863910486374883624863648835200484291004882910004862814862710))))))
 (.node 16 (.node 8 (.node 4 (.node 2 (.node 1 (.leaf 4865714865610486541486514885020048650148649148648488464884530486444884324864314864214843714864048839488383)
 (.leaf 48870104886910004846114866610488611000004865848856488553))
 (.node 1 (.leaf 4868748883248485486862488821488814888020486824887948878300484794868124847310486761048674100)
 (.leaf 4889814870148897204849814870014849748496484954869740484944849320004869114869010484874848648688488844)))
 (.node 2 (.node 1 (.leaf 4851648719489143000004851014850948712204850710000)
 (.leaf 4893048929248533487332000004872714872610004852214852110))
 (.node 1 (.leaf 48750148550487492487481485484874724854710000004873710)
 (.leaf 489581004876448955248954100485634856248951300004894610487554894420))))
 (.node 4 (.node 2 (.node 1 (.leaf 485861485854858420485834858248780304877810048775100048773148574148769489592487681)
 (.leaf 485991487961004879314859448593200485914878920485891485871))
 (.node 1 (.leaf 48817149006100488114900349002490014486134881024880910048610488082486094860824860748804248606488032486044880224860310)
 (.leaf 486331000048827148826148626488254882330000488201488191488181)))
 (.node 2 (.node 1 (.leaf 48849148848148847490374903634903510488444884249033348841148840104902914883749028249027149026149025104863548634488343)
 (.leaf 48865104905210048661486604886048858490504904960048659488572049044148854148853148852148851490414904030))
 (.node 1 (.leaf 4906749066200488771486751048872148673100000048667488662)
 (.leaf 488961486994889548893348698104869648890248695148694148887148886148689488854907330490721490711490701490691)))))
 (.node 8 (.node 4 (.node 2 (.node 1 (.leaf 4871448713489093004871148710248709489032000489011000)
 (.leaf 48731100048729487284892430048725148724148723100000))
 (.node 1 (.leaf 4894549136204875348943248752148751489412491301489391004874614873848933204893110048928491162)
 (.leaf 489611489604915024895714895614914710489531004876248952491434914244876148760248759489504914134875848949491403489484913824894710)))
 (.node 2 (.node 1 (.leaf 4878648785248784489752487831487824878148971348970491622004896714877710000487724896320)
 (.leaf 48801489914918234880048990491813487994898924879848988248797100048795489854917649175448794489842489834917424879248982491734917244879148790489813004878848787489783))
 (.node 1 (.leaf 490091490081490071049005149004149193149000491924919130000488074880648805489974899554899449185248993148992491832)
 (.leaf 48833148832488312488301049018148828104901710488244901520048822490122488211490101))))
 (.node 4 (.node 2 (.node 1 (.leaf 49039149038492292492284922720492251490344903249224349031149030100000490241)
 (.leaf 4905610000490514924249241349240104904814904749237249046149045104904349233249042492322))
 (.node 1 (.leaf 4906814925749256249255100488731048871490612004886848867200)
 (.leaf 48900488994908830492751490851490841488941488921488914907924926910049075149074100)))
 (.node 2 (.node 1 (.leaf 48910100048908489072489064909524890549094492843489041490901489024908920)
 (.leaf 491191491184930424911710004892749115248926489252048923148922100000))
 (.node 1 (.leaf 491371049135493172489424913424913349316249132148940491312048938489372489364912824912710000489321)
 (.leaf 4915149149493333491481493324933149330349146149145149144493284932730049325149324149323149322149139493212493201)))))))))))
 (.node 512 (.node 256 (.node 128 (.node 64 (.node 32 (.node 16 (.node 8 (.node 4 (.node 2 (.node 1 (.leaf 48977148976104897414897348972249345149161148969491604934334915914896849158204896648965491563491551489641048962491522)
 (.leaf 493671004918010048987491772489861004935710493564935524898014897949171493543491701))
 (.node 1 (.leaf 4920149383249200149199493822493801491971000493751493741048999489984919049188493734937249371749187148996491864937030491841)
 (.leaf 4902314902214902114902049019492103492091004920814901614920614901449013200490111)))
 (.node 2 (.node 1 (.leaf 4941510492311492304941324941214941149410204922649409494083492234940620000000)
 (.leaf 492471492441004924349426494253494241492394942320049238492364942149420400492351492341))
 (.node 1 (.leaf 4925910000490621004906049059249058490572)
 (.leaf 4927714908749086492764945840000490824908124908010049078100492641))))
 (.node 4 (.node 2 (.node 1 (.leaf 4928814909849097494693049287149096492864946749466449285104909349092492833490911)
 (.leaf 493131491294931224931114931010491204930624930510493031000493011000))
 (.node 1 (.leaf 49326495092049508104950714950649505249504149503104931949501249318149500104931510)
 (.leaf 493421493414952520491571004915414915349335249334495184951730049515104932949513249512495112)))
 (.node 2 (.node 1 (.leaf 49359495422004935814954014953914953810491694935324935214916849167204916649165493473491644916349346495294049344495272)
 (.leaf 4937749559249558149557104955514955414936949553495523493684955124955014936614936549548249364149363495472491794936249545349178493612493601))
 (.node 1 (.leaf 4920749390249205493892492041049203492024938634938514938449567204919814938149564249563149196493792491954919449378495604)
 (.leaf 4940749591204922249405495893492214940449588349220494034958734921949402495864958540492184940020492174921624921510492131492121492114939320)))))
 (.node 8 (.node 4 (.node 2 (.node 1 (.leaf 496071494224960649605304960414941914941849603496023004941714941614959814941414959649595249594100)
 (.leaf 4943910049438100049249104924810049427496112000))
 (.node 1 (.leaf 492741492731004926810049447149446149263494452492624944424926114926010492581)
 (.leaf 494684964520049465149282494642492811494621492804927949461494594963754927814945710)))
 (.node 2 (.node 1 (.leaf 49482149481100049302100000)
 (.leaf 4950249683204968210496791494994967820493144949720494951494941494931000))
 (.node 1 (.leaf 493384933749336495194049697100049694149514149692149510496912496901496894968820496874968620496841)
 (.leaf 4953714953614935149535249350493492495311493484953024971014952810495261000493404933949524300))))
 (.node 4 (.node 2 (.node 1 (.leaf 497321049549104972849727249546149726149544149543497232000495411497201497191497181)
 (.leaf 49562497424974134956114974049739249738149737104955649736497353497344973320))
 (.node 1 (.leaf 494011495841493991493981493971049395149394149392104939110049388495724975234938749571497513495701)
 (.leaf 49780104959910495974977620497741049593149592495904977130004976714976610)))
 (.node 2 (.node 1 (.leaf 49609100004978410496001)
 (.leaf 4945149809249632100049626104962414944314944249622249441496212496204979949798349440496192000))
 (.node 1 (.leaf 496471004964610049643149463496422496411494604963820496361004945610)
 (.leaf 49480149479494782000000000000))))))
 (.node 16 (.node 8 (.node 4 (.node 2 (.node 1 (.leaf 496811496804986120494981496771494964967624967510000000498441496641)
 (.leaf 495164969624969549876204969349874249873498722049871149870498692000498651000))
 (.node 1 (.leaf 495324971149894349893149892100000495231497021495221049521495202496981049879498782)
 (.leaf 49908149725149724499072499061497221497214990420000499001497171497161495344971524953349712498953)))
 (.node 2 (.node 1 (.leaf 49922100049919499182499171499164991524991414973149913249730100)
 (.leaf 49580149579104957614957510495744957320000049569149568149747149566495652))
 (.node 1 (.leaf 4977710497754995749956304977349955249772497704995334976910049949100049583149582497632495811)
 (.leaf 4997314961049972249788149787149969149785499672000049601149962100497781))))
 (.node 4 (.node 2 (.node 1 (.leaf 4980414962514980210496234980020000497971000)
 (.leaf 4982314982214964410049640149639100498141498131000))
 (.node 1 (.leaf 4983910498375002424966349662496613000000000000)
 (.leaf 500371500361049845500332050032100500291)))
 (.node 2 (.node 1 (.leaf 500681500675006620498685006550064349685498672498665006225006114986414986350060200004986014985910)
 (.leaf 4970614970549704249703104988314970114970049699249880150076104987710050071500702498755006920))
 (.node 1 (.leaf 499051000000498984989624971449713250091150090150089150088149709497085008734970749891500863498881)
 (.leaf 499211499205011525011415011310050110149912104972914990915010515010415010310501011)))))
 (.node 8 (.node 4 (.node 2 (.node 1 (.leaf 49754149753100497501497491049748149929149746497454974434974349925200499241499235011820)
 (.leaf 499511497684995020004976510497641497621497611497601497594975824975714975610497551))
 (.node 1 (.leaf 497834996624978249965499633497811004977949961501563499605015524995950154249958501532501521004995449952501493)
 (.leaf 4998314998215018210000501701501691004978949970501685016750166504978649968501643)))
 (.node 2 (.node 1 (.leaf 4999314980310049801499892499881004998710)
 (.leaf 49821500082498204981950007349818104981749816500023498155000120))
 (.node 1 (.leaf 5003015022710500255022224983850221200000000)
 (.leaf 50249100005024050239250039150038150237100000))))
 (.node 4 (.node 2 (.node 1 (.leaf 5006350264250263502622005005910498621050057104985850055200000)
 (.leaf 49884104988249881500773050075502762000050072502712502701050269502682502671502661502651))
 (.node 1 (.leaf 499011049899500952498975009420050290502892502881502871004989049889500843049887149886498855008330)
 (.leaf 5031015010810499114991050106305030410501025030220050301149903501005030034990210)))
 (.node 2 (.node 1 (.leaf 499335012924993249931501283499301049928149927499265012430000501195031925031815011750317250116503162503141501121)
 (.leaf 499484994724994614994510499444994324994249941249940149939501352499385013420499374993620499351499345013120))
 (.node 1 (.leaf 49964501612000005035410005015115015050148250147503482000)
 (.leaf 501775037725037610503755037425037110503691005036850367250165503662050163503652000)))))))
 (.node 32 (.node 16 (.node 8 (.node 4 (.node 2 (.node 1 (.leaf 4999250191249991499905019035018915038910501881501871501841000501801501791000)
 (.leaf 500091005000650206250005502032500041500031000500001000501931501921))
 (.node 1 (.leaf 5022350420200050023100000000000)
 (.leaf 50236504352005023515023215023110500311005042610502261)))
 (.node 2 (.node 1 (.leaf 50257150056100050250100050446150444150244150243100502421)
 (.leaf 5046810050466504652050464504632504621504611504601502615045920000500581))
 (.node 1 (.leaf 50286150085502852050082500815028350281450080502802502791500791500785027720005007450275250073502722)
 (.leaf 50303505002000504971050099500985029935009750298250096150296105009350092502923050487100))))
 (.node 4 (.node 2 (.node 1 (.leaf 50121503212501205032025051615051410505121503155031320050111100501091501075030850306300)
 (.leaf 50335150334505322501335033350531505304501325033220050130503315052835033050527250329505262501271501265032720501251050123501225032330))
 (.node 1 (.leaf 5035215035115035050546250349503475054535034615014650145503453050144150143150142150141150140503392501395013850338350137503372501361)
 (.leaf 505665056525056415056315036450562505613005036315016215016050361505583050159501585035950556505555501575035825035715035615035550353505525055040)))
 (.node 2 (.node 1 (.leaf 50383150181503822503811503805057850577305017810050574150572105057050569250568150370100)
 (.leaf 50202150201150200100000000050585150388150385150183503842))
 (.node 1 (.leaf 50204504022504011504001)
 (.leaf 504331504301005023050229502285042940506271050425105042110005041910)))))
 (.node 8 (.node 4 (.node 2 (.node 1 (.leaf 50447150648105064715044550443506463000000502381000504341)
 (.leaf 506675066625066515066415066350662200050260150457150259502582050256150654150653150449506522504481))
 (.node 1 (.leaf 50282150479504772005027850474200504711502745027325046910504671000)
 (.leaf 502975049525049415029550493205029450293504893502915048820005048410050483150284504822)))
 (.node 2 (.node 1 (.leaf 505135071425071315051115031250510250311505092050309150707150307505055070630503051050499100504981)
 (.leaf 507291005032850525507273505245072625032615032515032415052015032210505175071950718350717150515507162507151))
 (.node 1 (.leaf 5054350746200503445034320503425053825034150340250536150535150534150336505332005073315052950732507313507301)
 (.leaf 5056015036250559250760507592503605055750758350757105055450756250553507555075430505515075220505491505481505471505441))))
 (.node 4 (.node 2 (.node 1 (.leaf 50379150378100000000505671000507641507631)
 (.leaf 5039250588250391150390100050584150581100000))
 (.node 1 (.leaf 5059715059610000)
 (.leaf 506171000000000)))
 (.node 2 (.node 1 (.leaf 5043815043715043610005063515063250838250631508375083635063050835205042815062950834250427506285083230508301)
 (.leaf 5045410005065150856250650508552506495085420005064510050442150441504402504391))
 (.node 1 (.leaf 504701000000508711508701000506611504581504561504551)
 (.leaf 504861504851000504811504801050478506792504765067820504755067620504735067425047210))))))
 (.node 16 (.node 8 (.node 4 (.node 2 (.node 1 (.leaf 50503505025050130000005049610506961504921506921504915049050691508985089755069015068910)
 (.leaf 5051950721250518507205092650925509245000509221509201000505085071150916350710150507505065070950914450708509132509121505041))
 (.node 1 (.leaf 50735509412000050937509362005093415072815093315093250931250523507255093035052250724509293505215072320)
 (.leaf 50753105075115075015074950955250748509545095335074750745509523507445095125054250541507433505405074250949350539507415094835074050947250537507392507381050736509422)))
 (.node 2 (.node 1 (.leaf 507625096925076110005096410050961100)
 (.leaf 507831505805078225078115057910050576150575507762507751505735077425057115077215077115077015076910))
 (.node 1 (.leaf 510005099920000005058715058650788200507871507861)
 (.leaf 506161005081010000000000))))
 (.node 4 (.node 2 (.node 1 (.leaf 506265083350831510304510291510285102720000000000000)
 (.leaf 50643506422506411506405063950844350638508432508421506371506361005083915103515103415103315103210))
 (.node 1 (.leaf 50659150658150657508632050859510595105835085851057250857510562510555105420000000506441)
 (.leaf 5067350878205067250671506703508751506691506685087325087210000005066010)))
 (.node 2 (.node 1 (.leaf 506881506875068650892305068510506845068325068215068150886250680508852508845108520506775088220506751)
 (.leaf 50705507045091135070350910511103507021507011507001506991506981050697509032506955090051100350694508992506935109925109810))
 (.node 1 (.leaf 51129150722509285112851127511265509271511251509235112425112315092151122511213511201005091915071250918250917509155111751116405111410)
 (.leaf 509435114425073715114215073450940511413509395114025093851138200000005113115113010)))))
 (.node 8 (.node 4 (.node 2 (.node 1 (.leaf 5096010050957150956151155511542511535115220511511511501509501511481509465114751146350945150944511452)
 (.leaf 507681050767150766150765105096815116710509651000511621509621))
 (.node 1 (.leaf 509911005098810050780509855118535077950984250778509835118435077750982250981105097915077315097710)
 (.leaf 512091000050800100512011005099615119710509951509921)))
 (.node 2 (.node 1 (.leaf 50825151024512182005101910005081715081610000510095121120)
 (.leaf 50841150840100051228100510315122620512245122325122210512211512205121920))
 (.node 1 (.leaf 5105351248251052150853510515124651245450852510505124430508511508501508491508481508471508465084551043351042151041151040512342)
 (.leaf 50869508682508675106825086610508655106525086415106315125515125415125215125110))))
 (.node 4 (.node 2 (.node 1 (.leaf 508885108725088751086512803051084150883510835127830050881508802050879150877105087610508741510721)
 (.leaf 509041509025090151101305129310005089615089515089415089310508911508901508891))
 (.node 1 (.leaf 511195131420051118151310105111551113513095130845130710511121511115130551304350909509082509075110951303350906511085130230509051)
 (.leaf 51135150935100000513241051321513202051319151318105131610)))
 (.node 2 (.node 1 (.leaf 51346151345151149151344513432513421513401051339513382511435133720513361513341511391000)
 (.leaf 5096750966200511655116325096351357251356105116115095951160250958511595135335115815115715115651350513493513481513471))
 (.node 1 (.leaf 51181151180150980150978511782005097650975250974105097315097215097151170513643509701511681)
 (.leaf 51385100511961000000511871509875098651186300))))))))
 (.node 64 (.node 32 (.node 16 (.node 8 (.node 4 (.node 2 (.node 1 (.leaf 510181005140210051398151206100051202100)
 (.leaf 5123115103715103651229200051227512255141751416405141415141210514111051409100))
 (.node 1 (.leaf 51247514382005143651435251243514345143335104951242251048512415143235104751046512405143151430551239151045510445123835123715123615123510510395123325103851232514223)
 (.leaf 510715107020510691051067151066151064151258105144551444251253100000)))
 (.node 2 (.node 1 (.leaf 5127951470205127710510821510815108020510791051078510775127235107651075205107451267251073100)
 (.leaf 5110251297512953000051097512922510961510951510941510935128825109215109151090205108951284512823510885128120))
 (.node 1 (.leaf 5131151502200515005149920005130651497514963051494105110751492251106513012513001511055129925110451103512983)
 (.leaf 5113315113251325200051323151322515135151230051317515105150935150715131515150615131351505515043513121))))
 (.node 4 (.node 2 (.node 1 (.leaf 51535515342051341515335153235153110515305152920515271513355152625152515133310511371005113651134513303)
 (.leaf 5116651361513595155140511641000051354105135251543251351151541515402515391515381051537515362))
 (.node 1 (.leaf 51374151179151372100511775117651175513715136950511741511735117225117110511695136325136215155210)
 (.leaf 5138610515761051384151381100005118351182513763)))
 (.node 2 (.node 1 (.leaf 512101514001000000)
 (.leaf 5142310514211512305142025141915141810051415516105160935160715141351606205160510516031514101))
 (.node 1 (.leaf 51250514392512491514375163120516291005162751626251625516242051429151428516222514271514261514251514241)
 (.leaf 51265151456151264512632514541512621512611512601512591000051443105144110)))))
 (.node 8 (.node 4 (.node 2 (.node 1 (.leaf 512765127551467351274512732005127115127015126915126810512661)
 (.leaf 5129651486205129410051291105129051289205128751286205128510512835147320))
 (.node 1 (.leaf 5150310000000051687151495105149351685516843000)
 (.leaf 5132951328205132751326200515155170625151415151151704205170351702517013515081517001516981516971516961)))
 (.node 2 (.node 1 (.leaf 517285172725172615172551724205172315172115152851720251719100005133215133110)
 (.leaf 5135851547251355100515451515441517355173425154215173210517301517291))
 (.node 1 (.leaf 513771051375151373515642005156115137010051368513675136651557451365515562005155310)
 (.leaf 5177315177215139110051577100051575100513801513791513781))))
 (.node 4 (.node 2 (.node 1 (.leaf 51591105140151589205139915158851782200)
 (.leaf 51615151614151613151612105179615161151795251608517942517935179220051790105160451788200))
 (.node 1 (.leaf 5181715163051816251815518142516281051812105181010518091516235162151808518074516201516191516181516171516161)
 (.leaf 51455105145315164515145215145110518251516385182425163715163615163515144251634518203516335181925144051632518183)))
 (.node 2 (.node 1 (.leaf 514725147120051469151468105146615146515146451657251463516542514625146120514601514591514581514571)
 (.leaf 514881514875167820514851514841051483514822514811514801514795147825147715147610514751514741516641))
 (.node 1 (.leaf 51501516932051498100516881518701516865186920514911514905148920)
 (.leaf 5152015171215151951518517115170945151710515165170820051705105188751886251885518842051882100))))))
 (.node 16 (.node 8 (.node 4 (.node 2 (.node 1 (.leaf 519135191220519115191025190915190815190751906205172251905251904151903100051524151523515225152130)
 (.leaf 515501051549515485174151924451740519232515461051737151736519205191930051733517315191635191551914200))
 (.node 1 (.leaf 515685175925156751566251565517572517561051563151562105156015155915155851749205174715155551554200)
 (.leaf 519571519561000000005176615157151763251762151570151569517602)))
 (.node 2 (.node 1 (.leaf 5179151978205197610517895197420000051968100000)
 (.leaf 51806519945199235180551991251804151803151802151801519872518001517991517981517971051982151980100))
 (.node 1 (.leaf 520105200925182210520061000052003520022052000151999151813519982051811519972519951)
 (.leaf 516561516551005165351652518353516515165025183315164915164810516475164620516441520131520121520111))))
 (.node 4 (.node 2 (.node 1 (.leaf 5167215167115167015166915166851667205166651665518493005166315166210516611516601516595165820)
 (.leaf 5205315168351682518673516811051680516795186430051677516762516751516741516731))
 (.node 1 (.leaf 52072105169951883252069151881151880100516955169420051692516915169030516891)
 (.leaf 5209010517181051717519012517165171525171410517131051710518952051893105170710)))
 (.node 2 (.node 1 (.leaf 51918521032519175210225210115210015209915209852097205209615209515209410520931520911)
 (.leaf 5175215175151934251750519332051748105174615174515174451927251743105174210051739517382519221))
 (.node 1 (.leaf 5176815176710519471519461051761105175851942251941100051755517542517531)
 (.leaf 51961151960100521421052140105195510)))))
 (.node 8 (.node 4 (.node 2 (.node 1 (.leaf 519811052165105197952163521623051977521612051975100000)
 (.leaf 520015218625218552184521833000000519935217725199015198915198810519865217125198510))
 (.node 1 (.leaf 52201152200152199152198152197105219515182352008251821152192152007520055219130005218710)
 (.leaf 51840518392518381051837151836151834152025100518325183120518301522051522041522031522021)))
 (.node 2 (.node 1 (.leaf 51862151861518605204735185910518515185020005184851847251846520392518451518441518431518421518411)
 (.leaf 51878151877151876151875518742052060151873518725187130005186852055522393520545223825186651865200518631))
 (.node 1 (.leaf 51894105189252079251891518905207830051889518885207330052070100000518791)
 (.leaf 52280152279152278152277105209252276522753000519021519005208725189915189851897520853051896520835208130))))
 (.node 4 (.node 2 (.node 1 (.leaf 519211005210515210452288522873522861522851052284522835228230522811)
 (.leaf 521271519405212620519395193825212315193752122251936519355212135212010519321519315211725193052116523013519291519281521131519261))
 (.node 1 (.leaf 52145105232810005213910523191005213210519451519441519431)
 (.leaf 52160100000000052336152147152146100)))
 (.node 2 (.node 1 (.leaf 521751521745236225217352361252172105217052358251984151983100000521645235120523491)
 (.leaf 520041052189152188523762523755237452373305237215237110521825237025199652181521793005217852176523653))
 (.node 1 (.leaf 520231523951523941523931523921052390152389152388152387152386523852521961523841521945238325219310)
 (.leaf 5203815203715203615203515203415203315203215203115203015202952028205202752026252213100520241)))))))
 (.node 32 (.node 16 (.node 8 (.node 4 (.node 2 (.node 1 (.leaf 5205252051205205010520491520481522311005204115204010)
 (.leaf 520711005225215206852067252066522502520651005206452063252062520615224730005205952058252057520562))
 (.node 1 (.leaf 52089522735245035208852272252271524492520861520841522681520821522661052080105207715226152439252076520755226052438524375520745225920)
 (.leaf 522891524651524641524631524621524611005245952458252457105245615245552454200522741)))
 (.node 2 (.node 1 (.leaf 5211915211815230015229915211515211452297252112522962052111152110522952052109521085229135210752106200)
 (.leaf 521311521301521291521281005212552124523083523071000))
 (.node 1 (.leaf 5233515233452514252513105233352511252332152329152506152327152504152141105232515249910524981)
 (.leaf 5235315235052523205252152520205215952348200000000523371525151))))
 (.node 4 (.node 2 (.node 1 (.leaf 521801005236652364525385253745236315253410523601523591052169523572521685235652528352167105216610)
 (.leaf 5255615238252555525543000005219052378252377525482525471525461052545105254310))
 (.node 1 (.leaf 5221215221115221010525685256720525661525651523915256420525621525611525605255920525581525571)
 (.leaf 5223715223615223515223415223315223210524091052224152223105221515221410)))
 (.node 2 (.node 1 (.leaf 52253105225110522491522481052246524252522455242425224452423252243152242522415242130522405241920)
 (.leaf 5227052448252269524472522675244625244515226552264524443052263152262105260110522585225725243615225615225552254524323))
 (.node 1 (.leaf 5262610526255262425246052623526223005262152620200000524531000)
 (.leaf 5247815247715247615229852475526383524745263720005229452293524725263345229252469205229015246652630526293526281526271)))))
 (.node 8 (.node 4 (.node 2 (.node 1 (.leaf 52315152314523135249335231252490200523115231052309524874524861005230615230515230452303252302524802)
 (.leaf 526751052674526732526721000052326100052661100))
 (.node 1 (.leaf 5252752694252355523545252652693526925000523525252452522526895268850052686152347152519100000)
 (.leaf 52369523682525401523671525365270452703300525331525321525311525305269625252910)))
 (.node 2 (.node 1 (.leaf 527261052724152723105272252721205238115238052379200000527131525441)
 (.leaf 524121524111524101052401152400105273515273310052732152563527302527295272825272710))
 (.node 1 (.leaf 524291052428524275258935258815242652587252586100052422152420525832525821052418525802524171524161)
 (.leaf 5260915260815260715244352606252442524415260552765452604152603152440526022052600105243552434525963524335259520524311524301))))
 (.node 4 (.node 2 (.node 1 (.leaf 527835278220527811005261910000524521524515261325261210526101)
 (.leaf 5263610524731005247052631205246852790252789100527875278620))
 (.node 1 (.leaf 5249252491252652528122005248952488252648100524851524841524835248252643528034524811052479526402)
 (.leaf 52831100005250552668526663052503105266252819200052497100)))
 (.node 2 (.node 1 (.leaf 526875284620528451052685100052516152678100525121000)
 (.leaf 5253952705252702528635286235253552701252700152699152698528585285735269710526951052853105252515269010528471))
 (.node 1 (.leaf 52879152553528782525525255125255015254910005271115271052870200525421525411052706528652)
 (.leaf 5273452894252893100528911527315288925288852887200005272515288352882252881152720528802))))))
 (.node 16 (.node 8 (.node 4 (.node 2 (.node 1 (.leaf 525921525915259052750300000525851525845274525274452902252743152742152581152740100)
 (.leaf 5276952928252768152767152766105276410527621052760152599525985275935259752756252755152594527542525935275320))
 (.node 1 (.leaf 52785529432527845294220005278015277915261852778529373526175277725261652776529353526155261452775352774152773529312527721526115277120)
 (.leaf 52639527992527981527971005263515263452795205263252791200527885294820000)))
 (.node 2 (.node 1 (.leaf 526601526545265352813300526515265052810305264952808200526475264652807305264552644252802152642526415280130)
 (.leaf 5283315283252989529883000005266752824200526651052976152975100))
 (.node 1 (.leaf 528485300320530001052844100005283715267752836252676152834100)
 (.leaf 52864530192528611528601528595301620052856530132528551528541052852105269152850200))))
 (.node 4 (.node 2 (.node 1 (.leaf 5303615303515303453033252719527182527175271652875352715528742527145287325287215271252871205302610528691527095270853023352867152707528662)
 (.leaf 53050105289253049253047105304615289053045530443052886530432530421052885152884153039530382530371))
 (.node 1 (.leaf 52752527512005274952907252748527472052746152905152904100529011527415290025289910)
 (.leaf 52929152926152925152924100052763529225307735276152921200527585291825275752917200529121)))
 (.node 2 (.node 1 (.leaf 52945152944530992529415309620052940152939530945309335293810529361530901529341529335308825293253087253086152770529302)
 (.leaf 5280010052796529552005279452793529545295253109531086052792529505310753106531055529495310420000529461))
 (.node 1 (.leaf 52818152817100528111528091000052806529652528055280452962300)
 (.leaf 52835100529901005298710052982152826529812528251005313510)))))
 (.node 8 (.node 4 (.node 2 (.node 1 (.leaf 530075316925285110528491053002531642005300153163253161153160100529941529931529921)
 (.leaf 53025152868530245318653185405302210053017531802531791530151530141531751530121530111530101530091530081))
 (.node 1 (.leaf 5304115304053202253201532002531991005319653195205287752876253030153029531912530281530271000)
 (.leaf 53054153051100530485321020005320710000)))
 (.node 2 (.node 1 (.leaf 5291653071252915529145291335306710529115291053065305290952908205306115290653060253059152903100)
 (.leaf 530851530841529275308353246353082153081100529235307820529205307625291910))
 (.node 1 (.leaf 5310353267205294710531011531005326320053097532592053095532572005309215309110)
 (.leaf 529645296320529615296025295953114205295852957531123052956105327115327010532695326820))))
 (.node 4 (.node 2 (.node 1 (.leaf 53295532942531341531335329220052974531322000052971152970152969529685312530529675296620)
 (.leaf 531515331325299110053149153148533082000053141533022053139105298010))
 (.node 1 (.leaf 53005531672053004105332710000053323100531541531531531521)
 (.leaf 53021531845334835318353347253020530185318230531781531771531761053174533382531731531721531711533361053006531682)))
 (.node 2 (.node 1 (.leaf 53364153198533622531971053360105303253031200053189100531881531871533491)
 (.leaf 5321710532135337825321210053209100000005320310))
 (.node 1 (.leaf 53068100530665322820530645322625306353225533913530621053222105338615305853057532215338545322015305653219253055532182)
 (.leaf 53247100530805324425307953243534073532421532411532401530751530745323825307353237253072105307053069532323)))))))))
 (.node 128 (.node 64 (.node 32 (.node 16 (.node 8 (.node 4 (.node 2 (.node 1 (.leaf 53265100530985326253426353261153260534242000005325415325315308953252200)
 (.leaf 53116153115105311315311115311010000534345343320534321053102532662))
 (.node 1 (.leaf 53459534582534571532931000531311005312415312353122532873053121153120105311953118531173)
 (.leaf 533115347725315010533101533091531471533075347325330653472534713533055347025330415330110531401000)))
 (.node 2 (.node 1 (.leaf 53162533265349335332515332415349110000053315153314534812053312534782)
 (.leaf 533421053340153339105333710053170105333215333110531661531651))
 (.node 1 (.leaf 5319453193531923053190100005335115335015351715351515318110)
 (.leaf 532111005320815337015320615320515320410005336310533615353020))))
 (.node 4 (.node 2 (.node 1 (.leaf 53227100532241532231000535521533841533831533821005354510)
 (.leaf 53577535762534081535751534061534055357325323915340315323653402253401153235532342532331053231153230153229533932533921))
 (.node 1 (.leaf 53423153591153258153256534222053255534202053418153251534175358535325053416253249534152532485341425341310532451534101)
 (.leaf 53275153274532735343835327253437253436153604536032053435536022536011536005359920534315359825326453430205342815342753595535945359340)))
 (.node 2 (.node 1 (.leaf 5328615328553451253284153283105328253281534473532805327925327810053277532762)
 (.leaf 53639536382536371000000053627536262053456536242))
 (.node 1 (.leaf 534825365320534805365125347910053476100534751534741)
 (.leaf 53503153335533342533335350120005333053329253496153328153494100053492536712536701536691)))))
 (.node 8 (.node 4 (.node 2 (.node 1 (.leaf 5351615334615334515334453511253343535102533415350920535071535061536861535041)
 (.leaf 5336815336715336615336553532200000535281533595335825335715335615335553354253521153353533522))
 (.node 1 (.leaf 5355053729253549153546153725105337753376533753533745354220533735354025337253371205336910)
 (.leaf 53569537492534001533991533981533975339625339553562253394100005339053389535583533885338753557353556100)))
 (.node 2 (.node 1 (.leaf 5376415358415358315358210534125358025341153579253409535785375853757405375653755253754153574105340453572253571153570537502)
 (.leaf 534295377725359715359653776537753053425537742537735377225359253590537713537701534211535891535885376725341953587537663535861))
 (.node 1 (.leaf 5344815344653614205344515344415344353610253442534412534401536075378725343953606537863536051053783100537811)
 (.leaf 5362853806200536255380220053801153455536232000053450534492))))
 (.node 4 (.node 2 (.node 1 (.leaf 536461000000536411536401000536365381320534631)
 (.leaf 538351000005364910))
 (.node 1 (.leaf 5350053679253499153498153497536762534955367520536731005367253852200538501000)
 (.leaf 53696153514153513535125369453692453691153690105350853688253687105350510053502100)))
 (.node 2 (.node 1 (.leaf 5353110053529537092053527537072535265352553706353524153523153522105352015351953518200)
 (.leaf 5372610537241535445354320053541105353953538537203535371053536537152535351535345353320))
 (.node 1 (.leaf 5356415356310535611535605355953739300537381537375392125355553736539203535541535531053551100)
 (.leaf 53581537615394435376015375953942200539401005375315375253936253751100535685374825356753747253566535652))))))
 (.node 16 (.node 8 (.node 4 (.node 2 (.node 1 (.leaf 539601000005376915395315395215376815395115395053949253765105376353947253762539462)
 (.leaf 53611537912537901536091536085378820053785153784539692539685396720539661005378010537781))
 (.node 1 (.leaf 539881053805153804153803100000005361753616253615105361353612537923)
 (.leaf 5382315364510536445382254000353643536425382153999453820153817153816100000000)))
 (.node 2 (.node 1 (.leaf 5383710000005365215382910536501053648153647538242)
 (.leaf 53674538552053853100540331538515403254030305384910000000))
 (.node 1 (.leaf 538715405225368953870253869153868100536855368453865353683153863153682153681536805386130536781536775385820538561)
 (.leaf 53708153888153887153705537045370330537021537015370020536991536981536971053695538752053693538732538721))))
 (.node 4 (.node 2 (.node 1 (.leaf 5372210537211053719153718153717153716153897153714537132053712153711537102000)
 (.leaf 5373515373453919205373353732539173537311537301539145409525391310005390754088200537231))
 (.node 1 (.leaf 539371053935153934153933153932153746539312537451537441537431537425374153925353740539242539235410525392254104200)
 (.leaf 541321541311053948105412815394554126205394353941541255412440005393954121253938541202)))
 (.node 2 (.node 1 (.leaf 5396554147200537795396425396310539615395954142300539561541381541371539551541351)
 (.leaf 5398310000537965379553794353793539772539761539751539741539731537895397220000))
 (.node 1 (.leaf 538195381853998353997541795417835381553996205381415399310539891053987153986153985153984541662)
 (.leaf 5383610000005382853827253826154004153825105400310)))))
 (.node 8 (.node 4 (.node 2 (.node 1 (.leaf 542081000000000000000)
 (.leaf 53866100538645404425386215404215404115386053859254039153857154037154036153854154034100))
 (.node 1 (.leaf 53883153882538812540615423725388054060253879540595423654235453878540582538775387654057354056154055542312538745405425405315422815405110053867540482)
 (.leaf 53899153898105389654078253895538942053893153892538912053890105388910538861538851538841)))
 (.node 2 (.node 1 (.leaf 539155409720000054266154265154087542642539065390554086305390415390353902540833053901539005408130)
 (.leaf 539305411325392915392815392715392615410654286254285100541021005391854101542815428045410054279254099153916540982))
 (.node 1 (.leaf 54129105412754306205412354304200005430015411915411854298254117542972541161541155429554294354114542932)
 (.leaf 541451539625414425414354141543235432254321553958541402539575413920005395415413654134543155431440054133100541301))))
 (.node 4 (.node 2 (.node 1 (.leaf 541581541571541561054154153971541532539705415254332354151543312000000541461)
 (.leaf 539955399454177354176154175100541701541691541681541675434654345300005398254164205397953978541603))
 (.node 1 (.leaf 5400815400754006541883541875436654365354005100540025418325400110541821541811541805435854357300)
 (.leaf 5403110054205100000000000)))
 (.node 2 (.node 1 (.leaf 54047105404654221254045542202540431005404054216205403854214254213154212154035542112542105440025420910)
 (.leaf 540645406354239354062542382544271054425154234154233544232542321054230154229544192000540501540491))
 (.node 1 (.leaf 540791005407754254254076540755425135407415407310540725424725407115407015406915406854245254067542442540665406520)
 (.leaf 54462154461154460105426710005426354454254262544532054260154085540842540825425820540801)))))))
 (.node 32 (.node 16 (.node 8 (.node 4 (.node 2 (.node 1 (.leaf 5410715447910005410354284254283154282544752544745447325447210542785447154470354096542772542765446820542741)
 (.leaf 543055430320054122543025449554494454301154493544922542991544911544891542965448820005411254111542925448545411054109254108542882))
 (.node 1 (.leaf 54319154318154317154316100545071545061543131543121543111005430854500254307154498544972)
 (.leaf 5415554334254333100541505433025414954329205414810005432515432415451654515545143543201)))
 (.node 2 (.node 1 (.leaf 543531000543475454120054344154343154165100541591543381543371543361)
 (.leaf 54189543672000541861541855436225418410000543561000543541))
 (.node 1 (.leaf 5438210000000000545631543681)
 (.leaf 543981545921054207542065439530000000000545781))))
 (.node 4 (.node 2 (.node 1 (.leaf 542265422554415354224544145460935441354608546073542235422254412300542191542181542171054215105440315440215440110)
 (.leaf 542435424254241544314544301542405442925442810544261000544221544211544201000542271))
 (.node 1 (.leaf 5425715425654255200542535444454442354252544412542505444020542491542481054246154434100)
 (.leaf 5465815465710005465415465354652200005445215426154451254645546442544491542591)))
 (.node 2 (.node 1 (.leaf 5447854672205467115447715447654669254668154667100546641005427515446710)
 (.leaf 54690154496105468854687205468610544905468425468210544875468120054291154290542895448354677454287544802))
 (.node 1 (.leaf 54511154510547052545095470420054508105470015450554699254310545045469835450354696254309545022545015469420544995469320)
 (.leaf 5433554527254526100054522547162054520105432754326205451815451715471054709254513547082545121)))))
 (.node 8 (.node 4 (.node 2 (.node 1 (.leaf 5454215473410054538154537547312547301000054531100545281)
 (.leaf 54557154364543635455635436115436010543591000543555454820545461))
 (.node 1 (.leaf 543831000000000005475910054562547572)
 (.leaf 543971543965458920000000000000)))
 (.node 2 (.node 1 (.leaf 546061544111546041544101544095440854602354407105440615440554404545983054596100543995459320)
 (.leaf 5462354829548283546225482725462115462010546181544245461725461615461515461454819254613548182546125481725441854611548163544175441654610300))
 (.node 1 (.leaf 54446154445154443546372548421054634154439154632154438154437546302544365443520054433546285462654831454432546252546241)
 (.leaf 54861154656548602546555485925485854857254651154457546505485635445654649548553544555464854854354647548532546465485254851305485054849254450546432546425484825444854847548463544471))))
 (.node 4 (.node 2 (.node 1 (.leaf 548785487720548761546705487520005466654871254665154469154663154662105486410548621)
 (.leaf 5468954895548943054893105468554891254889154683105488715448654484546805467840054482544812546741546731548791))
 (.node 1 (.leaf 5491010549081005490510054697154901154695549002546925489920054691548975489630)
 (.leaf 54525154524154523547172005452110054519547132547121547111054707549145491335470610549111)))
 (.node 2 (.node 1 (.leaf 5473354937254540545395473230000000545301054529547222547211547201)
 (.leaf 54555154554154553154552545512545501545491000545471547421000547361))
 (.node 1 (.leaf 54961154758100545585475320)
 (.leaf 54977100000054577154576154575154775100000))))))
 (.node 16 (.node 8 (.node 4 (.node 2 (.node 1 (.leaf 54594100054797154591545905479630547941000005498010549781)
 (.leaf 54812154811154605548105500935480915460310546015480625460054805254599105459710545951))
 (.node 1 (.leaf 54627154830550292550281000005461915482255022254821550212548205502020000)
 (.leaf 5504615464154845550453546405484455043354639548432546381548411546365463555040354839154838550382546335483725483615463115462910548321)))
 (.node 2 (.node 1 (.leaf 548635506220550615506020055058155057550562550551550541005505215505110550491550481)
 (.leaf 5508310005507915487210005506710550631))
 (.node 1 (.leaf 55103551022551011551001054892550995509830548901054888550955509430546795488620005467654675548803)
 (.leaf 551171547035470255115305470115490710054904154903154902551092551071548985510620551041))))
 (.node 4 (.node 2 (.node 1 (.leaf 549271549261547191547185492425492315492255130205471554714549205512740054919154918154917154916551222549155512125491255120551193)
 (.leaf 551471549405514655145354939154735105493615493510000547241054723549282))
 (.node 1 (.leaf 54960551672000547525495625475115475015474915474815474715474615474554744200547431)
 (.leaf 55186100547785518255181354777154776100000054963154760100)))
 (.node 2 (.node 1 (.leaf 551921551911005518815497910)
 (.leaf 5480815480715500510054804548032548021054801548002054799154798549962549951000))
 (.node 1 (.leaf 5482555023254824548232552315523025522915501955228255018155227155016155015155014552232548155501355222354814548135501235501115501010550081)
 (.leaf 548405503955249355248552472550371552461054835105483455032254833100055027105482610)))))
 (.node 8 (.node 4 (.node 2 (.node 1 (.leaf 552641552631552621550535526125526015525915505015504755257205525615504455255552543552531550425525225504110)
 (.leaf 5528115528015527910552761055275155274155273105527155270205505955269205526710))
 (.node 1 (.leaf 548815508725508655295255085100005487415487310552871548705507825507715486910552821)
 (.leaf 5531210000005509715509610054885550935530235488455092254883548825509130)))
 (.node 2 (.node 1 (.leaf 549095511625532510551131549061553221551121551111551101553185531725510855316553153551055531420)
 (.leaf 5513515513415513310549251055129100551261005512515512455332255123155331553302))
 (.node 1 (.leaf 55353105493855143255142553505534935514110000549291)
 (.leaf 5516410054955549545516335495315495215495115495015494910549481549471549461))))
 (.node 4 (.node 2 (.node 1 (.leaf 55185100005518010000000551721549625517120)
 (.leaf 5518955402554013000))
 (.node 1 (.leaf 5500755006200550041550031550025500125500015499915499815520615499755205554223005520415541910)
 (.leaf 554481055447105544515501755226255225554432552245544225544110000552181552175543525521655434554333)))
 (.node 2 (.node 1 (.leaf 554645546325503655245255035552445546135503455243255033552422552411552405545825503155239255030552382055236155235155026155025552332550245523255450554494)
 (.leaf 5548115548015547915547815547715525855476554753554741055472105547110552515546925525010554661))
 (.node 1 (.leaf 55278554962552775549420055492155491155272554902554881005526855486554853055266554842552651554821)
 (.leaf 55084105529215508255081552913055080155288100555011555001554991554981))))))))
 (.node 64 (.node 32 (.node 16 (.node 8 (.node 4 (.node 2 (.node 1 (.leaf 55531555302553115552925531010555271553075552525530615530555524555233553041553031555211553011553005551955518355090552992550895508855298552964)
 (.leaf 55329155118105532455543205511410555415554025532115553815531910555365553525553415553310))
 (.node 1 (.leaf 5534315534215513255341255131553402055338105512810000005554910)
 (.leaf 5515410005535410553525556925514455351255567155566100551405534820553441)))
 (.node 2 (.node 1 (.leaf 5516810055369100551625536825516115516015515915515815515710)
 (.leaf 5537710))
 (.node 1 (.leaf 55406556082055190554045560635540315518755400255399155398556012055599155598155597100)
 (.leaf 552071055421556252005542010000000000))))
 (.node 4 (.node 2 (.node 1 (.leaf 554381552215543725522055436255219100552155543255636355214554312552131552125542925521110552101552091552081)
 (.leaf 554551552375545425545315545255656255451155234105565210554465565055649305544455648255647556462055645155440556442))
 (.node 1 (.leaf 554705567425567315546855672255467556712055669155668155465556672554621556655566425546055663255459556622055457155456556592)
 (.leaf 55487556912556901055688105568715548355685556843055683155682155681155680155679155678155473556772556761)))
 (.node 2 (.node 1 (.leaf 5570410557035570220055497554955570055699455698155697155696155493155694155489556932556921)
 (.leaf 5552055722557213555175572055719305529715551655718205529410552931055510557122552905528955509557114000))
 (.node 1 (.leaf 5573815573755736205573515531315553210055309155308555282000055725557242555221)
 (.leaf 553331555501000553285554825532710553265574620553231005532015553910)))))
 (.node 8 (.node 4 (.node 2 (.node 1 (.leaf 55770155565100055561155560100553395555720557581553365555655757305533555334555545555255755557546)
 (.leaf 555831553761000553735537225557910000000055568557712))
 (.node 1 (.leaf 55600100055393105539110000000555841)
 (.leaf 55804100005540855609255407557982055405557975579635560755605557953000556031556021)))
 (.node 2 (.node 1 (.leaf 554281005542755426255425155424155423100556241556235581520556211000)
 (.leaf 558405583925583810558361556431554395564225564155834558333556405583225563955831255638558302558291055637556355582855827405543010))
 (.node 1 (.leaf 558561558551556615585325566010556585585125565755850205565555848558473556541556535584520556515584320558421558411)
 (.leaf 558725587120558691556755586825586755866200055670558632558621005586055859255858155666558572))))
 (.node 4 (.node 2 (.node 1 (.leaf 5588755886255695155885155884155882155689155881155880558792558781055686558772055875100)
 (.leaf 55713105550815571015550715589915570555897255896100558941000558901558891))
 (.node 1 (.leaf 555265572955921355728559192557275591825572655917255916105572355915559143559131559121559111559101555155590925551455717255513155512155511557142)
 (.leaf 5554210557435593425574210555371557395593155930559294005592715592615573415573355924255732155731155730559222)))
 (.node 2 (.node 1 (.leaf 559501005575655947255551557535594530000555471555465574925554555544200)
 (.leaf 5557055773255772559622559611559601000005556255764255763155762155559155558557602))
 (.node 1 (.leaf 55596100000000)
 (.leaf 559891558035598825580255987255613558015598635561255800255611557995598555984455610559832559821000557931556041))))))
 (.node 16 (.node 8 (.node 4 (.node 2 (.node 1 (.leaf 556315582356010355630155629558212556285582056008560074556275581925581856006255626560052000560021556221558131000)
 (.leaf 5602610558375602525602415583556023560223056021560202005601815601756016200558265601456013355634556335582556012455632558242))
 (.node 1 (.leaf 56043155854156041155852560392005584956037256036105584656034560333055844105602910560271)
 (.leaf 55873156059560582560571558705605620055865560545605335586410055861560492560481056047560465604535604410)))
 (.node 2 (.node 1 (.leaf 560755607425588815607315607256071255883156070105606810000560635606225587655874200)
 (.leaf 55904105590215608715589856085200000055701558935608030558911560761))
 (.node 1 (.leaf 5611015592015610815610715610615610515610415610315610215610115610015609910557165571555908560984559075609620)
 (.leaf 5574555744256125155935105574155933255740559325612135612010055928561182561161561151559255611420559235611220))))
 (.node 4 (.node 2 (.node 1 (.leaf 561421557591000005594656135205575255944255751559432557505594225574855941255747100)
 (.leaf 55963100000005595510559531557611))
 (.node 1 (.leaf 5617010005579410557921557911557901557891557881000)
 (.leaf 558145600120000000000559905617756176305617556174200)))
 (.node 2 (.node 1 (.leaf 5601556202562013056200156199156011156197155822560095619656195400005600415581755816561903000)
 (.leaf 560315621725603010560285621420562135621220562115621025620910562085620725620615601915620515620310))
 (.node 1 (.leaf 56234562332005623115623015604215622956228256040562272562265622525603856224200560355622125622010560321)
 (.leaf 560655625156250356064562492560611005624515624410560555624256241305624015605256239562383560511056236156050562352)))))
 (.node 8 (.node 4 (.node 2 (.node 1 (.leaf 5608156266205589256079205607756263562613056260105625815625756256256069156255156067562542056253562522560661)
 (.leaf 5590655905562823056094155903560932000562741560865627356272305608456271562703560835626925608215589510))
 (.node 1 (.leaf 56113156298156111561095629656295405629410056292562915629030562891562881562871005628410)
 (.leaf 5593856129256128563142559375593656127300056123156122563072056305156119561175630330563021563011563001562991)))
 (.node 2 (.node 1 (.leaf 5595456143200563271055949559482005632215613656134563213563201000561311559405593956130563164)
 (.leaf 56155156152156151100000561451561441))
 (.node 1 (.leaf 5635810563561561731561721005598115598056168255979155978561662055977559762559751559741)
 (.leaf 5638415619156189563825638145600310561881560005618725618610000000563591))))
 (.node 4 (.node 2 (.node 1 (.leaf 563971562045639620563951056393156392563912561981563905638920056194563885638730561921)
 (.leaf 5622315622256413256219564122562185641125641015621615621556407200056404100564001))
 (.node 1 (.leaf 56431156430105623756428256427105623256426564255642440056422156421156420156419156418156417564162)
 (.leaf 56448156447105644510564445644320562485644256441356247564402560605624656439356438100056243564345643330)))
 (.node 2 (.node 1 (.leaf 564631056462156268100005626515607856264562625645540564545645325625956452256451100)
 (.leaf 56480156286564792564785647720564761560971562831560955647456473356281156280564722056276156275105646510))
 (.node 1 (.leaf 564951005649315649210564901564891562971564871562935648520564841564831564821564811)
 (.leaf 56133561325651035631815631756509565083056315156126565052563131563121561245631156503356310156309565015650035630856306564993056304564972)))))))
 (.node 32 (.node 16 (.node 8 (.node 4 (.node 2 (.node 1 (.leaf 5615010056330100005614056325205613915613856137200)
 (.leaf 56169105616710056165563472561645634620000000565271))
 (.node 1 (.leaf 565531056551156360100000561711)
 (.leaf 56570156569156383100056379100000561821000)))
 (.node 2 (.node 1 (.leaf 5639915639810056581156394156580156579105657715657615657515657456573205619310)
 (.leaf 564155660225641456601205659956598205659756596256409565952564081565931056405105640356589256402156401565885658730))
 (.node 1 (.leaf 564325661856617356616566152056429566145661330566121566111564235661025660910566081566061566051566041566031)
 (.leaf 5663310056446566312056629566282005662510564375662420056436566212564355661920))))
 (.node 4 (.node 2 (.node 1 (.leaf 564615664825646056646205626756458200564575664225645615664056639200564505663625644910)
 (.leaf 56665156664156663156285566622566611000005627915646856654256467100564665646456652566514))
 (.node 1 (.leaf 56681100564945667956678566774005649156675200564885648656673566725667150566701566691566681566671566661)
 (.leaf 565131563195651225651110000565045669020566881056502566872056498566845668330564961)))
 (.node 2 (.node 1 (.leaf 567141000056522567082563295652125632856520567053005632656517205632456323256514100)
 (.leaf 563531056352563515654335635015634915634810056537100005671710567151))
 (.node 1 (.leaf 5637010000000005635756550200563551563541)
 (.leaf 567631056386567615676035638510056758105656815656715638010000)))))
 (.node 8 (.node 4 (.node 2 (.node 1 (.leaf 5659156779256590567782000565861565855677425658456772256583567712565825677020005657810567651)
 (.leaf 56607567965679530567941567935679220567911567905678925660015678815678715678615678515678415659415678215640656592567803))
 (.node 1 (.leaf 5662356811568103566225662056809568084005680615680515680410568031568011568001567991056798567972)
 (.leaf 56641568282566385682756826356637156825156635156634100056632566305681830056627568175681635662656815200)))
 (.node 2 (.node 1 (.leaf 564711000566531566505683925664956838205664715683656835256459566455683456833400566441056830568292)
 (.leaf 56861156860156859156858105685715685615685515685310568511568501564751566601566591566581))
 (.node 1 (.leaf 566865687556874356685156872156871156682105668056869568683056866156865156676105667456863568623)
 (.leaf 5651956518200565155670025688910056698568872000056507156506566925688035669156689568793568781))))
 (.node 4 (.node 2 (.node 1 (.leaf 5671610000056897156707568962567061056704568942)
 (.leaf 5654215654156540256539156538567342567331000005691310005691010))
 (.node 1 (.leaf 5655410567471565525693720567461565495654856743356547156546567412565451056544100)
 (.leaf 5676710056766105676456762569545695340056572567595695256951456571156949105675715675615675510)))
 (.node 2 (.node 1 (.leaf 567835697556974356973156781100056777105677510567731569645696320569621567695696125676856960569593)
 (.leaf 5699015698956988256987569862056985105698315698215698115698015697915697810569761))
 (.node 1 (.leaf 568145700625681310056812570022570011056999105680756998569973056996569952568025699420569921)
 (.leaf 566435683257022356831570212057019157018157017156824570162568235701557014356822156821570135701230056820156819570105700930))))))
 (.node 16 (.node 8 (.node 4 (.node 2 (.node 1 (.leaf 5684910566571568461568431568421570331568401005683715702810000)
 (.leaf 57055156864570542570531570521570511570501570491570481057046157045570442568545685225704315704210570401))
 (.node 1 (.leaf 5688157072570713000568771568765706725687357064200568701570611056867570592570581570571570561)
 (.leaf 5689510005670356891256702567015689035708257081256699568882570795707820056697566965688635669556885256694568842566935707320)))
 (.node 2 (.node 1 (.leaf 56911157099570982000569081569051000000000)
 (.leaf 56739567382567375673620569261567351569241000000000569121))
 (.node 1 (.leaf 56938100056745567445693630567421005674010)
 (.leaf 56958571555715435695710056956571502569555714820056950571462057144105694815694710))))
 (.node 4 (.node 2 (.node 1 (.leaf 5717257171257170157169156972571672569715716625697015696957165256968156776569672569665716125696510571591571585715725715610)
 (.leaf 5718710569915718525718415718315718210057180571792569845717820571775717625717515717415697710))
 (.node 1 (.leaf 5700757005572013570045720020057003571972570001571951571941571931005719157190256993571892571881)
 (.leaf 5702315721715721615702057214257213157212105721057209257208105720710570115720525700857204572033)))
 (.node 2 (.node 1 (.leaf 570411056848570392568475703820570341057032156841570312005703010000)
 (.leaf 57250157249157248157247157246157245157244157243157242157241157047157240572395723830000))
 (.node 1 (.leaf 5726610057070157262157068570665726130057065572595725830057060572555725430572531572521572511)
 (.leaf 5708757282572813570861570855728025708415689356892570833005708015727410000570741568835688220)))))
 (.node 8 (.node 4 (.node 2 (.node 1 (.leaf 57101157100100056909105690715690610000570881)
 (.leaf 57119156928569272056925105711610000000000))
 (.node 1 (.leaf 573375733620057130105693515693415693356932256931156930571222571211569291)
 (.leaf 57152573602571515714925735857357205735615714715735415714510000000)))
 (.node 2 (.node 1 (.leaf 5737857377200571645737425716357372257162105716057369205736815736610573651057153573645736330)
 (.leaf 573931573921573911057181573905738935738815738710005717357384573833573825738120573801057168573792))
 (.node 1 (.leaf 57199100571985719657406300574031571925740225740115740015739910000571861)
 (.leaf 5742415721557423574223057211574212057419105741715741510572065741420574121057202574102))))
 (.node 4 (.node 2 (.node 1 (.leaf 57233157232157229157228157227157226100572251570291570275722325702615702557024200572181)
 (.leaf 574561574551574541574531574521574511057450157448574472057237574462000572351572341))
 (.node 1 (.leaf 57069572635747057469400572605746725725757466574653570635706257256357464105746210574601574591574581574571)
 (.leaf 57279574885748735727857486257277574852572761005727557273257482574815748030570775727225707657075572695747957478557477100572675726557475574745747350)))
 (.node 2 (.node 1 (.leaf 57097100574891)
 (.leaf 0))
 (.node 1 (.leaf 573271571181571171571151571141000000000)
 (.leaf 5753010005712957335205712315733015732957524257120573282))))))))))
 (.node 256 (.node 128 (.node 64 (.node 32 (.node 16 (.node 8 (.node 4 (.node 2 (.node 1 (.leaf 57361573592575515755020057355575482057546157544157143573532573521000000)
 (.leaf 573755756720573735756525756310573701575601057367157558157556100575541057362575532))
 (.node 1 (.leaf 575821057581575802005738657578257577157576157385575752575741575735757225757110057569157376575682)
 (.leaf 574071057597105740557595257404575942575935759220000573981057396157395575852573941)))
 (.node 2 (.node 1 (.leaf 5742557615200574205761225761115760910574185741657608576074057606100574135741157603305740957601257408576002)
 (.leaf 57441157440157437157436100574351572241574311572225743025722157220574295762145721957428576205761940000))
 (.node 1 (.leaf 576471576461576451576441576431576421005744957640576393057637105723610574431574421)
 (.leaf 57264576632057471576612574681005765715765657655257463100057461576512576501576491576481))))
 (.node 4 (.node 2 (.node 1 (.leaf 57678105748457676576753000576721057271105726857476576693000576641)
 (.leaf 57490576822576815768020))
 (.node 1 (.leaf 57326100000000000000)
 (.leaf 0)))
 (.node 2 (.node 1 (.leaf 577251577231575495772220575475772020575455771820577171057543100000)
 (.leaf 575661577371575645773625773515756215737157561577345773345773215755957731257730157557157729100575555772620))
 (.node 1 (.leaf 57584157583577555775435775315775210575795775025774915774857747200577451577441575705774325774210)
 (.leaf 575995777325759857771200057596577672057764157591577632000057397575882575875775957758357586577572)))))
 (.node 8 (.node 4 (.node 2 (.node 1 (.leaf 576141576131005761057782200577805777920005760557777257604576025777657775400)
 (.leaf 5780315763110000574341057433574325762230057792157427576185779135761757790257426577892))
 (.node 1 (.leaf 578181578171578161578151578141057813157641578112576381578091005744557444576363576351576341)
 (.leaf 576651057472578332576625766057832578314005765915782910576545782625765357825200576525782220578201)))
 (.node 2 (.node 1 (.leaf 57679578502057677578492578485784720574835767457846357673100000576671000)
 (.leaf 5752110000000000057853100))
 (.node 1 (.leaf 57866100575295770225770110057523575222)
 (.leaf 57727105789057889200575525772457886357721578852578845788325771915788215788110057716100))))
 (.node 4 (.node 2 (.node 1 (.leaf 579071579061577415790525774057904257739579032577385790125790010578991057896100578941578921577281)
 (.leaf 5758957761579233577601579221579211057756579185791730057916579152057751579145791335791215791110057746579082))
 (.node 1 (.leaf 579391577745793820057936157772577705793557934457769100577685776657930357765579282057927157590100)
 (.leaf 579531577881576165778725795015778515778457947200577835778157946579454579441579431000)))
 (.node 2 (.node 1 (.leaf 578085796925780757968257806157805157633576325780430057627105762615762557796579593576245762357795305779310)
 (.leaf 57823579862579851057984579822578211057819579815798035797915797815797715797610579755797425781210578101))
 (.node 1 (.leaf 57668578402576665783720005783515783415799410057658578305782857991579905578271057988579872578241)
 (.leaf 5785215785158013200580115801020580091000576715784225767010))))))
 (.node 16 (.node 8 (.node 4 (.node 2 (.node 1 (.leaf 57703100005769010000)
 (.leaf 5788815788758046258044100000057879100000))
 (.node 1 (.leaf 58063580622579021058059158058157898157897580562057895158053157893158051157891580502000)
 (.leaf 5792015791958077580763058075580742058073158072105791058070258068105790958067205806610)))
 (.node 2 (.node 1 (.leaf 5809458093257933580922579321005793158089205792958088580873005792658085580843577625792525792458082200)
 (.leaf 58110157786579515794958109581085579481000581041000579425810025777857941257940580982579375809720))
 (.node 1 (.leaf 581251057967581242579665812325780257965257964157799579612577985779720057794579572000057952581122)
 (.leaf 5814115798358139258138105813658135258134158133105813215797358131205813015797258129257971157970581272))))
 (.node 4 (.node 2 (.node 1 (.leaf 58001105783610005799358151200579925814958148357989581475814630058145581442581435814220)
 (.leaf 580151580141058012100000578455800825784458007257843580042057841158003157839578382))
 (.node 1 (.leaf 57865157864100578601000000581741)
 (.leaf 580485820325804758045582023005804258199200057880158039100000)))
 (.node 2 (.node 1 (.leaf 5806515806458219258061582182580605821758216358215105805710580551580541582091580521005804910)
 (.leaf 580795823425807815823358232258231105822910058071580695822758226400000))
 (.node 1 (.leaf 580955825025824915809158248582473580901058245105808658244582435824240000580835808158238582374580801)
 (.leaf 582681058111582672582651581075826458263300058103100058101105809958255258096582522)))))
 (.node 8 (.node 4 (.node 2 (.node 1 (.leaf 5828315812858126582825828140058280158279158278158122157960105795810057956579555811458270457954581135826930)
 (.leaf 58299158298100058140158137582932582921000005828610582841))
 (.node 1 (.leaf 58002581582058000157999579985815735799710579961057995581525815058306583055005830358302200583001)
 (.leaf 581731583271000581681581671000005800658005581613583161)))
 (.node 2 (.node 1 (.leaf 0)
 (.leaf 58207158206100582051582045835525820115820058353258043158198583512058041105804015819510))
 (.node 1 (.leaf 582231058221158220583712583701583695836825836715821415821358365258212158211158210100)
 (.leaf 58392583912583901582391005823615823558387258386583852583841583831583821582305822858381300582255837958378583774582241))))
 (.node 4 (.node 2 (.node 1 (.leaf 5825415825358405584043058251584035840235840115840058399258246105839810583965839558394358241583932582401)
 (.leaf 58115582712000058418105826658417205810658262584153582615841458413358105582602582591581025825825825710))
 (.node 1 (.leaf 58287584382000582855843625843515843315843210058430158429158277158118158117158116582722)
 (.leaf 584531058301584512000582971000582911582901582891582881)))
 (.node 2 (.node 1 (.leaf 581651581641058163581622584671058160581595831530058312158156581555831135815415815310058304584562)
 (.leaf 5832810581725832658478358171583255847758476458170583242581695832358475300581661))
 (.node 1 (.leaf 58197105834915819610000000000)
 (.leaf 58527158366585265852535852415836415836315836210582085836020583585851725835710585151583561058354585122)))))))
 (.node 32 (.node 16 (.node 8 (.node 4 (.node 2 (.node 1 (.leaf 5854310058540158539158380585382000058222158374105837258531585303585291585281)
 (.leaf 5855958558200585561583975855520585545855325855110058389585495854830058388585462058545585442))
 (.node 1 (.leaf 5841658575585743058412158411585712584101584091005825615840758566258406158564585635856230585611585601)
 (.leaf 58592105843158591585903058589158428158273158424105842215842115842010000)))
 (.node 2 (.node 1 (.leaf 58449105829658295584473582945844625844315844210584405860025843910585971058437158434585965859530585931)
 (.leaf 584651005846215831058461586213583095830858460358307158458586172584575845558616358454100058452100))
 (.node 1 (.leaf 5847958639200058636158474158473586332583225847225832158471586325863145832058470258319586302583185831720005831458313584663)
 (.leaf 5865510586541000000000))))
 (.node 4 (.node 2 (.node 1 (.leaf 585135851125835258673258350586712000583481000000000)
 (.leaf 5868815868610585235868525868415852115836115851958680258359585185867930005851658514586775867640586741))
 (.node 1 (.leaf 585425870558704358541587035870230058701158700100585361583765837525853458695258533586945869358692458373585322586911586901)
 (.leaf 5872115872015871910585575871720587165871525855258714587133587121005855058710258709105854758708258707587062)))
 (.node 2 (.node 1 (.leaf 5857658736258573587352005857258570587323585695873120058408585682005856558726587253587241058723587222)
 (.leaf 58588587502058425158583105842310585791584191585771587381))
 (.node 1 (.leaf 5844810058445584445860658604458603158602158441586012005859858760200058594587585875735875610)
 (.leaf 5846458625258463586225878430005845958620587825878145861958780258618587792058614100005845010)))))
 (.node 8 (.node 4 (.node 2 (.node 1 (.leaf 5863815863758799205863558798258634587975879630005879315879210584695846858627300586261)
 (.leaf 588165881520058814158813588122588111588101000000000))
 (.node 1 (.leaf 5851010585091058508586692005882415866515866410000588181588171)
 (.leaf 58687588472588461005868358844258522586825884358842458520586812588411058678588392058838158675588362058835158672588332)))
 (.node 2 (.node 1 (.leaf 5886458863205886210058860105853715885615853558696258854158853158852158851158689588502588491)
 (.leaf 588801587185887920588771588761588755887420588731588721058711588702588691588681588671588661588651))
 (.node 1 (.leaf 58737158734588965889535873310058730100587291585675872825872758886258885158884588832000)
 (.leaf 587521587515891020587495890720058584158743158582587422585815874125858058740258739589002585785889920588971))))
 (.node 4 (.node 2 (.node 1 (.leaf 58605587682587651058763158762158599587612058759100589165891520000)
 (.leaf 5878358940205893910586155877720058613586122005861158773258610586095860830586071))
 (.node 1 (.leaf 589581589571058955158795158794589542000586295862858790358789589482587881005862458623587875894640)
 (.leaf 58977105897615897515897415897315897210588091588061000588021588011588001)))
 (.node 2 (.node 1 (.leaf 58670588302000000588231000589805897920)
 (.leaf 5901115901015884515900710059006158840590045900330059002159001158837158834589995899835899710))
 (.node 1 (.leaf 5902715902659025200059023590222586995885959021358698586975885859020458857159019158855590182590171590165901525901410588481)
 (.leaf 58881590445904359042458878590412005904059039590383059037159036590352005887159034259033159032590315903035902910590281))))))
 (.node 16 (.node 8 (.node 4 (.node 2 (.node 1 (.leaf 5889459058258893158892590562588911588905905420058889158888590515905035888715904859047259046100588821)
 (.leaf 587531005907315890959072258908590712590701058903158902158901100000))
 (.node 1 (.leaf 5876958926258767587665892530589231587645892225892115892010058917100590781587551587541)
 (.leaf 587865878558945591074589441000005877858938258937158776158775587745893330005877258771258770589302)))
 (.node 2 (.node 1 (.leaf 5895910058956159118105895315895259116200587915895158949305894715911010591081)
 (.leaf 58971591385913730005912915896610058961158960591232))
 (.node 1 (.leaf 589931000005898759154258986159152105882015881910000)
 (.leaf 5917859177259005100591741591735917259171359000591702058996591695916835899515883210588311))))
 (.node 4 (.node 2 (.node 1 (.leaf 591961588615902420591945919320591921591901591891059188591872590135918625901259184259183159182159009591812590081)
 (.leaf 592111592105920920005920710592041005920115920059199205919810))
 (.node 1 (.leaf 5905515922615905315905210592231005904959221592205921940059217159045592162592151592141592131)
 (.leaf 592431000590661590651059063159062592355923430588981005905959057592313592291)))
 (.node 2 (.node 1 (.leaf 58924159086159085159084105891910589185908020005891415891310589125891120)
 (.leaf 5910110058936158935105893415893215893115909459265258929590932589281589271590881))
 (.node 1 (.leaf 5911759115592885928740058950591125928535911159284259283100591091058943158942589412)
 (.leaf 5931210593081593071059130100059128105912410591221591215929320)))))
 (.node 8 (.node 4 (.node 2 (.node 1 (.leaf 589855915320000058978591452591441005914310059140593142591395931320)
 (.leaf 591671589941000000000000))
 (.node 1 (.leaf 59357159356105935515917915935310000059347159346105934510)
 (.leaf 591975937020591955936820593675936625936515919159364259363159362105918559361593605935940)))
 (.node 2 (.node 1 (.leaf 59389593882059212593872005938310059208100592051000)
 (.leaf 592305922859403359227159401159225105939815922459222593973593961593951593941592185939359392300))
 (.node 1 (.leaf 590761590751590745924720005941615924215924115923815923715906459236594103059409159061592335940835906059232594063)
 (.leaf 59437159092590912590905908959263359260105908759258200590831590821059081100590791590771))))
 (.node 4 (.node 2 (.node 1 (.leaf 59279100591065927825910559104592753059103591022592721059100594442590995909859271594434592701590975909625909510592661)
 (.leaf 5929515929415946615929259465259120591195929159464459290594632000594601591145911325945810000))
 (.node 1 (.leaf 5948410594821000593021593011000592991592961)
 (.leaf 5932915932810005914710591461000591421593171591415949225931510)))
 (.node 2 (.node 1 (.leaf 591665934125916510000005950615950510593301)
 (.leaf 59530159358595282059527105918059526595253000059176591752005934859517200))
 (.node 1 (.leaf 592025937420005937215937159541595403595391593695953825953715953615953515953415953310595311)
 (.leaf 5939159561200593905955925955859557259386595562593855955525938410593821593811005920659380595493593791592031))))))))
 (.node 64 (.node 32 (.node 16 (.node 8 (.node 4 (.node 2 (.node 1 (.leaf 5940710005940515940459402595745957359572505940015939959569200059566100595631)
 (.leaf 5925115925059249259248100592465924559418359244594172000059414159411595812000))
 (.node 1 (.leaf 5943915943859609259264159262594362592615943525925959432259431105925759429259256594282592551592545925325925210)
 (.leaf 5928215928159455594533592805945220005927759276594505944845944715927459446259273594452000059269592685926759442594405)))
 (.node 2 (.node 1 (.leaf 594735964520059468159467100005928959462596343594615963320059286100)
 (.leaf 59489100596591594831059481596552596541000594761000593001))
 (.node 1 (.leaf 595041595031595021596721593225949825932159497596703593205931959496359495596692593185949459668596674059666159316594935949159665400594901)
 (.leaf 59350593495951930596941000593445951320593435934220593401000596801596791))))
 (.node 4 (.node 2 (.node 1 (.leaf 597121597111597105970920595325970759706359529100005935459524597025970159700559523159699159352159351595202)
 (.leaf 5955115955010059378595472059377593762593751005937315954259718259717597162059715597142597131))
 (.node 1 (.leaf 59567100059565159564105956259738597373059560159735159734597332059554159553159552597292)
 (.leaf 59585159582100595791595785975525957759753200059750159749159748159570100)))
 (.node 2 (.node 1 (.leaf 5959910594271594265942520594241594235959325942210594211594205941925958810005941559586597633)
 (.leaf 59616100059441596102059787105960815960515943459433596043596031059430596012596001))
 (.node 1 (.leaf 5980959808259459105945715945610594545962659624300594511059449596192000)
 (.leaf 5964715947515947410598255982425964459823259822159469596402000059635100596321)))))
 (.node 8 (.node 4 (.node 2 (.node 1 (.leaf 596635984559844598434596621598421059657598415984035983910596565983720059653598352000)
 (.leaf 59681598665986530059678159677159676598612598551059671598545985330598521598511598501598491598481596641))
 (.node 1 (.leaf 59695100595181595165969320595155951420059512595112000000)
 (.leaf 598981598971059895159894159708598935989235970559891598903597041597031059888598872598861005952259697259521596962)))
 (.node 2 (.node 1 (.leaf 59548100595465954559544597224597191595431005990110599005989920)
 (.leaf 59568597432000000005973615992059919259732599182597315991625973015991410))
 (.node 1 (.leaf 5975815975759942259580100059752159576595752059751599352599341597471595715974659931300)
 (.leaf 595981595971595961595955959420005959215959159590595893059587100597641599471597621))))
 (.node 4 (.node 2 (.node 1 (.leaf 596145961359791599775997655979015961259611597895997540059788105960715960615978210596025978025977915977815977710)
 (.leaf 5963059629205962859627598063596255980325980215980115962359622598003597995998525962159620597985998459983559797159618597965998235961759795599815998045979415979315961559792599783))
 (.node 1 (.leaf 60012600112600101060009160008600072600061596395981720596385963725963659814200598111000)
 (.leaf 598386002726002615983660025200059834100005982710059646598262)))
 (.node 2 (.node 1 (.leaf 60043106004216004116004016003916003816003710059847600342598461060032600312060029600282)
 (.leaf 59864159863159862600542059860105985660045600443))
 (.node 1 (.leaf 6008460083260082100598855988360080359698598822598816007720005987915969215969115969015968910)
 (.leaf 5990315990210000006009260091259896160090160089600882600876008626008515988910))))))
 (.node 16 (.node 8 (.node 4 (.node 2 (.node 1 (.leaf 59921601152059917601146011330599156011120059728159727105972659911259725597245991035972310597215972020)
 (.leaf 601291005993259930601263597455974459929601254059927159742159741159740599242597391000))
 (.node 1 (.leaf 597675995125976615976515995015994960142601413599486014020059943105975659941259940159754599396013536013460133200)
 (.leaf 5978315996615978115996415996315996210597761597751597741597731597721597711597701597691597681)))
 (.node 2 (.node 1 (.leaf 6017760176260175100601731006017010599746016820005978610597855978459970599684)
 (.leaf 59815105981315981210598101059994599922598071059805598045998960182405998716017910599861))
 (.node 1 (.leaf 600141006001316020416020316020260201260200601992000005981610)
 (.leaf 6003060225206022460223206022116022060219200060023160022602162600211000))))
 (.node 4 (.node 2 (.node 1 (.leaf 602406023920602386023720000000060036160033602282602271)
 (.leaf 600586025326005716005660251260055106005360248260052100))
 (.node 1 (.leaf 5988460078200059880600762600751059878159877598762000000)
 (.leaf 60093602846028330602821602811602801602796027860277360276106027516027416008110)))
 (.node 2 (.node 1 (.leaf 60112601106030260301400599136010925991260108260107160106159909159908159907601012599061599055990460099360098160097602882600961)
 (.leaf 599336012860318360127603176031630599286012320059926599252005992315992210000))
 (.node 1 (.leaf 601371000059938601326032460323459937599366013136013060321200)
 (.leaf 599671599656015826015716015616015510599615996020599596015125995815995715995610599555995425995315995260146601443)))))
 (.node 8 (.node 4 (.node 2 (.node 1 (.leaf 6036716036610601746017260364359979601716036360362400000599736016720599721599715996960162300)
 (.leaf 599981005999759996599953005999360187260184603752599915999060183603744059988601816037336018060371260370160178100))
 (.node 1 (.leaf 602061000603941060393603922603916039020060198603892601971600011600001599991)
 (.leaf 6022260413604123060409100600241060217106021516021410000)))
 (.node 2 (.node 1 (.leaf 6042916042816042716023660426200000006003516022960417260226100)
 (.leaf 6025410602526044120602501602496043926043860437260247100604321604316043020))
 (.node 1 (.leaf 60079602692602686045620000600746007320000000)
 (.leaf 6009516028660473604723600946028560471360470160469160468160467160466160465100000))))
 (.node 4 (.node 2 (.node 1 (.leaf 60488106030016029916029816029760484604833601056029626010460295604823601036010220601006029060478360289604776047630)
 (.leaf 60320605062603196050560504306031560503260124603146050236050116012210601216012026011916011816011716011616030510))
 (.node 1 (.leaf 60145160336160335605222601436033460521360333160332605192603311603281601361000060322605102605091605071)
 (.leaf 6016160160603513601596035026034916034810060154106015316015210601501603411601496014826014710)))
 (.node 2 (.node 1 (.leaf 60554106055360552260365160551605502603616054960548300601691060166160165160164601636035430603521)
 (.leaf 60193601922060191601902601891601881006018616018510060372160559106036960557605563603681))
 (.node 1 (.leaf 603971602056039626039560579206057816057716057660575260574100060388100)
 (.leaf 60415606002006041460597260596160410100060218604082006040560589260404160403160400605862)))))))
 (.node 32 (.node 16 (.node 8 (.node 4 (.node 2 (.node 1 (.leaf 604251602356042426023460423260233602326023160422460230604192604181060416606012)
 (.leaf 604441604431604426062720604401606241006043660621200))
 (.node 1 (.leaf 6046310604611060273604592602726045826027160270604573000060267160266602652000)
 (.leaf 602946048126029360292602913606681606671604751006028760474260662606612606601060659160658160656100)))
 (.node 2 (.node 1 (.leaf 6030916030816030760306604956049346049210603046030326048910000604861604851000)
 (.leaf 603256051120060508100060696160695606942606931606921606911060313603122060311603102))
 (.node 1 (.leaf 60529160340605282603391603386033760524360523100000060518160515160327160513160326605122)
 (.leaf 6035860357605433603566035560542360731106035316053816053710605351605346072326034760346605333605321603456053160721360344603436053036034210))))
 (.node 4 (.node 2 (.node 1 (.leaf 605586074826074710060745160555160743160741106073910603606054760737607364060359605452605441)
 (.leaf 607646076320607626076120605736075926057210060381160380605662603796037820603776037660563607524000))
 (.node 1 (.leaf 604076040626059110006058560774607736077240060584100000607651)
 (.leaf 606071604216042060606606046079260791660603160602100605991000605951604116059460782300)))
 (.node 2 (.node 1 (.leaf 606256081260811306062316062260808260807160806160617608052606166080426061516061416061360801260800100606116079820)
 (.leaf 60630100060628160814160626608132))
 (.node 1 (.leaf 6046416065316046210060460606512000006045560645260454100)
 (.leaf 6067316067210604806047960670300606651606641006066360849608486084746084616084516084416065710)))))
 (.node 8 (.node 4 (.node 2 (.node 1 (.leaf 6049860689260497606886087436068716049616049410604911604901606791006067816048760677260676608612606751606741)
 (.leaf 6070210060699160698100606976088360882306088060879200060500608772604996069060876608754))
 (.node 1 (.leaf 607201607191607181060527605266071636052560713260712160711100605206071020060707160514607042)
 (.leaf 605466073560922609214607346092020060733160730160541607296091536054060539607283006053660725260724106072216090710)))
 (.node 2 (.node 1 (.leaf 60562160561106056010000060744160927160742106074010607381)
 (.leaf 6058010060948106094710000000607541605656056420))
 (.node 1 (.leaf 60598607856096736078416078110060593607806096236059260779260590607782607776096060959360776609582605886058760775360957609562006077110)
 (.leaf 6061260799206061060609606086079760795609796097876079410060793609752607906097460973360789160788160787160786100))))
 (.node 4 (.node 2 (.node 1 (.leaf 60815609972060995100608106099326080960992609913609901060989609886098736080316080260985200)
 (.leaf 608321608311000000060635100606341060629608162))
 (.node 1 (.leaf 610211060843610182060655608412608401606546083926065260838200606506083726064916064860647608333606461)
 (.leaf 60863610372608621006085916085816067116066960854206066660852260851160850100)))
 (.node 2 (.node 1 (.leaf 6088161055260878106105310061050106068660873260685608722606846087161046360683606822606816086726068016086510)
 (.leaf 6070960894260708160890160703608892608881060701607006088661061460885100610581610571610561))
 (.node 1 (.leaf 6072760726609113609101609091609081061080106090616090561079610783609046107726090316071760902610753607156090160899610744607146089861073360897610726107130)
 (.leaf 609291609286110261101306092661100260925160924160923610972060919100609181607326091726091416091310))))))
 (.node 16 (.node 8 (.node 4 (.node 2 (.node 1 (.leaf 60945160760609442060942160755160753609382060751160750160934160749106093316074660930200)
 (.leaf 609616113426113310060955100060953160950160767160766106112161120200))
 (.node 1 (.leaf 609761611481609726114726097116097016096910060968160783160966100609631611351)
 (.leaf 6116661165261164106116361161260986161160160984100609831609821609811609806115461153360977611526115130)))
 (.node 2 (.node 1 (.leaf 61007161006100060817106100060998206117110609966117020609941)
 (.leaf 610231610221061020612022610196120120610176119926084261198261015161014611962610136119520611931608366101226101116083560834610106100861190611896))
 (.node 1 (.leaf 60864100006086061036206103461215261033160857608566085561032406085361028261027161026100)
 (.leaf 61238161054612376123661235400061052161051612322061049161048161047106087060869608686104546104216086610))))
 (.node 4 (.node 2 (.node 1 (.leaf 60896612512608956107026106916089310610641610636124561244360887610622061060612426124136105916088410612391)
 (.leaf 610896108726091216108516108461266261083161082161081106126161260200006107616125510))
 (.node 1 (.leaf 61103106128110610996128026109861278206109610006109216091661091612723610901)
 (.leaf 60946611192060943161116161115100609376111026093660935200060932611052609311)))
 (.node 2 (.node 1 (.leaf 61136100061132161131106095461129261128161127161126161123106094910)
 (.leaf 613366133520613341611506133326114961332613313611461611456133061329361144161143613282000611416132426096561140260964611396113730))
 (.node 1 (.leaf 6116916116816116761351261350161349161162613472613451061159613442000611571611561611551613371)
 (.leaf 6136010061173160999611726135630000)))))
 (.node 8 (.node 4 (.node 2 (.node 1 (.leaf 610161000000000000)
 (.leaf 6103561216261396161214613952610316121326121216103061029612093612081612071610256120626102416120416120310061200613812))
 (.node 1 (.leaf 6123310006140916122861408261227614072612261610446104320610416104061221306103961038261218100)
 (.leaf 6106816106510061243614252614241614236142226124016142116142016141916141816141761416261234100)))
 (.node 2 (.node 1 (.leaf 61263100061259614402612586143920061257100612541612531000)
 (.leaf 6127961459261458161095612776145730610946109320612731061269161088161086161268614462612651612641))
 (.node 1 (.leaf 6111761297614763612961612951061111612912612906147026110961108612893006110761106612886128646110461285200000)
 (.leaf 61313614982613121613116149626131061495261494161493100061302161122613012613001006129916111861298614773))))
 (.node 4 (.node 2 (.node 1 (.leaf 61327161513106114261326261325161509161138613232613221061505161319161318615032613176150226131616113061315261314614992)
 (.leaf 611581000000006152010615196151826151761516200))
 (.node 1 (.leaf 61175613582611746135761543300061355100613521061348615366153536153416134661533200)
 (.leaf 6119461375200613746156461563361192611916137361371400061188613692611871000615491613611615471)))
 (.node 2 (.node 1 (.leaf 61393161211613926139036138916138816138716120516138516138410613821061380161379106119710)
 (.leaf 61599100612256122461223614066140450612221061220161219613992006121761398615873613976158626158510613941))
 (.node 1 (.leaf 6161261611200616101616091061415106160416141416123161413261230614126160236122961411616013614101)
 (.leaf 614386162861627361437100612566143626143510612521614321612501614301061426100)))))))))
 (.node 128 (.node 64 (.node 32 (.node 16 (.node 8 (.node 4 (.node 2 (.node 1 (.leaf 612766127561456361274100612716145026144916127061637206126716144516144461633261443161262614422614411616291)
 (.leaf 614711061469161468616582061287614662061284161283161282106146010000))
 (.node 1 (.leaf 614811006148016147916147861669261667106147561666261474616642)
 (.leaf 61504161698106150161696261500106169216149761691200006149261687616863616851616841)))
 (.node 2 (.node 1 (.leaf 615216171526171410617121061710161515161514615122617071006151010613216132061508615066170250617001)
 (.leaf 615371617316173061729361728161532161727106153116153016134361342261341613406152630617201613396133861525615234615226171820617161))
 (.node 1 (.leaf 61744106154861743617423613596154520000006135461353206153861733617323)
 (.leaf 6176416137761376615663615651061761161760100006136861559200000))))
 (.node 4 (.node 2 (.node 1 (.leaf 6158416158361581261391615802615791615781615771613866157626157516157416138310000613781)
 (.leaf 616006179720061794617932615961614056140361595361592161402614012615901614001000061783617822))
 (.node 1 (.leaf 61615106161310000000616076180426160661803261605618012061603161799617982)
 (.leaf 61631161630161824100616266182226162561821200616241614346143361623361622106143116161910)))
 (.node 2 (.node 1 (.leaf 6164516145561454616446164261839618386614536164161837361452618362614516163961835618344616381061448616362614476163526163461830618293618281616321)
 (.leaf 616651618601618561616601616591061657106146710614651614646146361652361462106146110))
 (.node 1 (.leaf 61872100000061672106167010061865100618611)
 (.leaf 6169516169461886618853616936188461883300616906188261881361689161688618806187936187816187716187616187516187410)))))
 (.node 8 (.node 4 (.node 2 (.node 1 (.leaf 6171316190316171161902261901161709619002617081615111006170461895261703106170161893206169910)
 (.leaf 61726106152961528615276172240061721617196191261911400619091617176190826190710619051))
 (.node 1 (.leaf 6193610615466174126174061933261544617396193261931400615421617371615416173626154061735619273615396173461926361925161924619232619221619201)
 (.leaf 617596195661955300006175610000000000)))
 (.node 2 (.node 1 (.leaf 61775161774161773161772161771161573617702615721061571617672615706176626156961568206156761959261762100)
 (.leaf 6198816159461593617923617891061591161589617862615881000619771006158261780617783617771617761))
 (.node 1 (.leaf 618071618066200162000361608618052618026199961998300619961618001619941006179661991261598615976179530)
 (.leaf 6182310061820100618191618181616211618161616206181526181216161416181010618081))))
 (.node 4 (.node 2 (.node 1 (.leaf 61840162032162031161640162029161833620282618321618311000618271618261618256201920)
 (.leaf 6185516185462049261853620482620471618511616566185026165561654618493616531618471616511061650161649161648161647618412616461))
 (.node 1 (.leaf 6187316206762066200618671616711620601618661620591616686186420006205310620501)
 (.leaf 6188910618876208262081362080162079162078162077620762620751062074162073106207262071200620691)))
 (.node 2 (.node 1 (.leaf 62099106209862097620963000617066189926170561898618966209262091506189462090620893000618921618916208626169761890620843)
 (.leaf 6172561724617236191761915561914161913162108106191010006190662102621013061904621002))
 (.node 1 (.leaf 6193462129621283006173810000000619216211720)
 (.leaf 61757106195162144261950100000000006193710))))))
 (.node 16 (.node 8 (.node 4 (.node 2 (.node 1 (.leaf 61967161966161965161769161768619632006196016176516195862153261763619572621511062149100)
 (.leaf 6178861983261787161981161785619806217536197916178410619781061781161779619732619721619711619701619691619681))
 (.node 1 (.leaf 621941621921061997162189161995106199362187621863619926218520619901619891621821619871617916179061986619844)
 (.leaf 62014162013106181762011206200916181162006262005161809620046219936219862197262002100)))
 (.node 2 (.node 1 (.leaf 62033622262062224162030162027622212620261620251062023162022162021162020106201810620161)
 (.leaf 61852106204410618481620411618461618451618446203826203716184361842262035162034100))
 (.node 1 (.leaf 6226110620611000062058622532618636186262057622514620561620556225062249362054622482062244100)
 (.leaf 622741622736227220000006226762266262070106206810622621))))
 (.node 4 (.node 2 (.node 1 (.leaf 620951620941006228610062283162087100061888620836227830)
 (.leaf 61918621132619161006210716210662302262105623012621041623001062103622996229862297400622966229520622931))
 (.node 1 (.leaf 6212762324262126106193061929206192810621221062118100006191910)
 (.leaf 62145100000000000000619356213062326623254)))
 (.node 2 (.node 1 (.leaf 61964161962621562061961100623441621501000061952621472621461)
 (.leaf 619821621741621731621721006217116197662170261975619746216962167462166162165162164106216216216110))
 (.node 1 (.leaf 6219362385206219116219010062380100621841621831006198516217910)
 (.leaf 62015162207162206162012106201062203200006200362196262195162387100)))))
 (.node 8 (.node 4 (.node 2 (.node 1 (.leaf 62225624162062223624132622226222026221962411262218624102620246221762409624084622166240726221562406262214162213624052622126240420620171622091622081)
 (.leaf 62046162238162045162043162042622356242636223416223362425624243620406223226203962231262230624226242136203662229200000))
 (.node 1 (.leaf 622551006244310000000062243624352000)
 (.leaf 6227110062270624596245836226916226810062265106226316245162450262449162448100)))
 (.node 2 (.node 1 (.leaf 6209362289622876247862477500062088622852622841062085622822622816246926228016227962468624673622761622756246562464300624621)
 (.leaf 6230310006248810000000062292162291624792622901))
 (.node 1 (.leaf 62124162123106212162318262120623176250636211962316200621166231326211516211410621126211126230616211062305262109623042)
 (.leaf 62520162519106213262327625163621311062514162323625132006212562322625113))))
 (.node 4 (.node 2 (.node 1 (.leaf 62158162157623502623491062155621546234730000000006233910)
 (.leaf 62366100062364162363162168623602623591623581623571621631623551623541621601621591))
 (.node 1 (.leaf 6238416238316218862382262381625712062379162378162377625672623766256662565362181623756256436218062374625633623731623721621786217762371362176623702)
 (.leaf 6220562396262204623952623941000006238616257510)))
 (.node 2 (.node 1 (.leaf 624156260226241462412626013626001625991625981625971000062403625922062211622106240130)
 (.leaf 622416243126224062430262239106223762236200062423626126261130626101624206260962608362419162228622276241836241710))
 (.node 1 (.leaf 624451062254626312006225210624401062438106243410622421)
 (.leaf 624631062649106246162648626476264646246016245710006245516245416226462453626393624526263820626371)))))))
 (.node 32 (.node 16 (.node 8 (.node 4 (.node 2 (.node 1 (.leaf 6248162667262480100062476106247410062471626586265736247016265516246662654200)
 (.leaf 62494106249210624901624891000624876267326248662672262485626712622946248462670362483626692624821))
 (.node 1 (.leaf 62321623206231962510400006231516231462502206231216231162310200623096230862307624964)
 (.leaf 62338625282000000006232962328625176270440000625126270162700626994)))
 (.node 2 (.node 1 (.leaf 62353162352162351625412625401062538627232623486253720623461623451006234210623406253120)
 (.leaf 6256116236962368625606255846236710006236562555262554162553162362623616255036254916254816254716235610625441))
 (.node 1 (.leaf 625766257420062573627582625726275720625706275562754362569627532625686275226275110627501062747627462625621)
 (.leaf 62402162400106239962586262398162397162585106258362763200000))))
 (.node 4 (.node 2 (.node 1 (.leaf 626076278962788362787162605162604627842062783162603627822627816278020000625951000)
 (.leaf 626221006243362432626213626181062429624282626151624276261420062792106279010))
 (.node 1 (.leaf 62641628192626401000626361062632162444162810162809162630162442624416262962808400624391)
 (.leaf 62656162834106265362651628326283162830562650628292000062645628252006245616264316264262821628203)))
 (.node 2 (.node 1 (.leaf 62666162665628446284362842406266316247516266116247362472626606283962838562659628372628361)
 (.leaf 6250162500262499624986268536249710062495162493106249162678200000626741))
 (.node 1 (.leaf 62703628832625156270262882300628791000626971625096269626250862507206250510625046250320)
 (.leaf 625351625346272062898362533628972006253062894262529106271316252762712628903006270762887262885162518627056288430)))))
 (.node 8 (.node 4 (.node 2 (.node 1 (.leaf 627351627341627331627321625461625456273026272916254316254262727206272516253910627221629011625361)
 (.leaf 62932629312629301627496292920629286292726274862926200625591627446274226255762741262556106274016273916255262551627363))
 (.node 1 (.leaf 625881625871627651006258410000000627566293426293310)
 (.leaf 62960629596295830627796295726277862956262777162776162596106259416259310625911625901625891)))
 (.node 2 (.node 1 (.leaf 626206261962801306261716261662796629733627951627941626136279320627911062967106296516260662786262785629636296230)
 (.leaf 6281616281516263562814262811100000626286280726262762626628063628051000))
 (.node 1 (.leaf 6283363009200628281628271628261000626441628231628226299962998300629961628181)
 (.leaf 6284916284816266862847262846100063018162662628416301736284016301510628356301326301210630101))))
 (.node 4 (.node 2 (.node 1 (.leaf 626846286420626836268226268116268062679206267716267616267562854262853100000)
 (.leaf 630561062698628782628771006269562694628743626936269220626911628701626906268962869362688106268762686628663))
 (.node 1 (.leaf 627171000062892630722006306510062706628866306363062406306063059262881162880630582)
 (.leaf 627311629091629081627281629061627261629041627246290363083362902630822062900630812627211000)))
 (.node 2 (.node 1 (.leaf 6310810006274562925631056310446292416274362923200629201629196309926273862918262737629176291530629131629121)
 (.leaf 62943162766100627646294126294010006293663114200000631101))
 (.node 1 (.leaf 63137100629541006277516277416277316277216277162770262769162945162768627672)
 (.leaf 62798627972062972162971162970631492629696314826296863147631463063145106296616314216296463141631403629616313920))))))
 (.node 16 (.node 8 (.node 4 (.node 2 (.node 1 (.leaf 62992162813629912063165106298710062982100062802162979162800627992)
 (.leaf 630071630066318563184363005163004163003631822000628246300126300010062997106281710))
 (.node 1 (.leaf 63024632026320136284563023632003630226319926302163019631986319740063196631952631941630166301463193631924006301163190631893006300863187631863)
 (.leaf 6286316286262861263037162860162859162858628572628561628556303226303110630291628521628516302726285063026200)))
 (.node 2 (.node 1 (.leaf 630551630546323263231362876628756305336305210628736287263050630484062871106286862867200628656304320)
 (.leaf 63070100000630646324226306163241632406323940632386323720630571632351))
 (.node 1 (.leaf 62907163086162905630852630841000630801062899100063254100)
 (.leaf 6292262921631036310140000630981629166309726291416309316309216291116291016308910))))
 (.node 4 (.node 2 (.node 1 (.leaf 6294263120263119163118162935106311316311216329163290206311163109632896328840631076328720063106632852)
 (.leaf 63136163135162955162953106295216295116295063127262949629482629471629461062944631242631211632991))
 (.node 1 (.leaf 6315010063325106332463323263144100631436332163319306331816313863317200)
 (.leaf 63169162990100629866298563163306298416316216298310062978106315416297762976629753629741)))
 (.node 2 (.node 1 (.leaf 6318310631811630021000000062995631746334836317316299462993263171633452631701)
 (.leaf 633731006337016336963368206336716319110063188106336110633591))
 (.node 1 (.leaf 630381630361630351630341630336321126321010630301632071630286320620063205163025632046337736320363376633753633741)
 (.leaf 632331000630516322926304963226200630476304626322416304563044206304216304163220263040632192630391)))))
 (.node 8 (.node 4 (.node 2 (.node 1 (.leaf 632446341820006341510063412100000)
 (.leaf 63263100632601632591630796325863432306307816343016325610000632511632501))
 (.node 1 (.leaf 6328163279263100632782006327716309663095632763630946327563273306327116309163270263090163268163088163087632662632651632641)
 (.leaf 6329716329610000000000000631021)))
 (.node 2 (.node 1 (.leaf 6313463313634863631336331226313210631316313063309363129163128106312663303263125106312363122633003000632981)
 (.leaf 633271633261006349710634951633226332063494634934634921063491100633161633151633141))
 (.node 1 (.leaf 6334310006316416333610631611631601631551063153631526333036315163329635023633281)
 (.leaf 633581000006318063179263353163178633522631776335126317663350263175633492063172633472633461))))
 (.node 4 (.node 2 (.node 1 (.leaf 6337263539263371106353516336616336563533200006336263360635293)
 (.leaf 6321816321716321663215263214163213163212163385100632096320863382635494633811633806354826337963547263378635462635456354420))
 (.node 1 (.leaf 6323410006323010634031632286340226322763401263225106322363398635643633971632226322163394300)
 (.leaf 63425163424163423106341963587206358516324363416206358263581200000632361)))
 (.node 2 (.node 1 (.leaf 634391634381063262163261106343310635991632571000000)
 (.leaf 63282634576362336345616328063455634533634521006345110632746344963447363272100632691634421632671634401))
 (.node 1 (.leaf 6347116347016346910006346516346410006328663460636273632846345926328363458636253)
 (.leaf 634896365426348863653263487163651163311634852633106348220633081633076330626347816330563304634773634761006330263301634756347340))))))))
 (.node 64 (.node 32 (.node 16 (.node 8 (.node 4 (.node 2 (.node 1 (.leaf 63331106350116350016349916366516366416349863496636633636621000000634901)
 (.leaf 635201635191635186368126351710635151635141635131635126367526334463511200000))
 (.node 1 (.leaf 6336416336310006352516335710633566352263686363355633546352130)
 (.leaf 635511633846338363550300000063543100063541163540100)))
 (.node 2 (.node 1 (.leaf 637311634006356826339963567200063396633956356336356216356116339363392263391163390163389633882633871633861635521)
 (.leaf 634176358363746300634146341363580637446374356357910634111634106357820634096340863576363407163406106340563404200))
 (.node 1 (.leaf 63431637612006342910634281006359216359116359010635866375063749306358463748637473)
 (.leaf 6344863446636153634451634441634431063441100636051634371063436634352634346360120))))
 (.node 4 (.node 2 (.node 1 (.leaf 63632163631163463634626363063792463629163461636282063626100063454636222000634501)
 (.leaf 6348163480636476364546347916364310006347463641263472636382063799163637163636100))
 (.node 1 (.leaf 63657106365510063652163484163483636502)
 (.leaf 6368063842263516636792063677163676638382638361636741006366963831263503636682636671000)))
 (.node 2 (.node 1 (.leaf 635326369426353163693263530636922063853163528635276352663691636895636886385163850363524636876384930000063683163682638432)
 (.leaf 637101000063542637052006370410063538635376370136353610635341))
 (.node 1 (.leaf 6356510000635601635591635581635571635561635556355426355363716263715106371310)
 (.leaf 635771063739163575635742635736357220063571635702063569637326389430635661)))))
 (.node 8 (.node 4 (.node 2 (.node 1 (.leaf 63597100000063754163753106391210639101000)
 (.leaf 63612163611163610163609163608637712636076377026360663769206360410636031636026376420636001063598639242))
 (.node 1 (.leaf 6379016378916362410063621637852636206378420636196361826361763781263780163616637792636146361363778637764)
 (.leaf 6364663809263644638062006364263805263804163640163639100063798163795639582637946395726379310)))
 (.node 2 (.node 1 (.leaf 6382563988263824639862636616366063823363659638222636586382163984306365610000638141638136397663975363812163649636482638101)
 (.leaf 6384116367863840200638371063835100638306399426382916366663828200638271638261))
 (.node 1 (.leaf 638546385264016640154000063847163685636846384630063845163844100)
 (.leaf 637091637081637071637061063867163703163702638652063700636996386363861400636986369763696363857163695638562))))
 (.node 4 (.node 2 (.node 1 (.leaf 638891637266372563888363724163723163722163721163720163719163718163717638782063714638762638751637121638731637111)
 (.leaf 63742163741637406390230063738163737637366390030637351063734637336389630006373063892263729637286372730))
 (.node 1 (.leaf 6391764080263916100000063909640716407036374563908200)
 (.leaf 6377263935200006376816376716376663928263765106376363762639253006376010639221)))
 (.node 2 (.node 1 (.leaf 63953163952641152637886378763951641144637866395064113363949641122006378363782639466410946394516394416394316394216394116377763775639403637741637731)
 (.leaf 63803638026396636380163800206396316396216396116412210006395616379116395464118641173))
 (.node 1 (.leaf 6398516414864147263820638196398330638186381726381663815639783006397764141264139106381163974641383639736413726397216380863807639713639681)
 (.leaf 6383964001264000641622000063993163992163991163990100639891641516415026398710))))))
 (.node 16 (.node 8 (.node 4 (.node 2 (.node 1 (.leaf 6401764180641793640146417826401310063848640102000640081640071000640031640021)
 (.leaf 6386963868640303000638666402826386410638621640221638601638591638586401926401810638551))
 (.node 1 (.leaf 63886640492063885638846404736388316388216388116388016387964040263877640392640381640371638741063872106387163870640323)
 (.leaf 6390110063899638982638971063895106389316405510638916389020063887640502)))
 (.node 2 (.node 1 (.leaf 64081642432642421640791006423716391164073200640726423420063907639066406936390563904640683640671639031)
 (.leaf 639321639311639301639291639276409126409016392664089200639231063921640842639201639191639181640821))
 (.node 1 (.leaf 63948639472641111000000639396393864104363937163936100639341639331)
 (.leaf 6396410641271641261000064121163955641202641196428126427964278206411616427710))))
 (.node 4 (.node 2 (.node 1 (.leaf 641451639806397920006414010000639701639696413226413116396710639651)
 (.leaf 63998639976416136415816415710006415310064152643122643111064149106398264307263981641462))
 (.node 1 (.leaf 64012640116417436417316400910064171164170164006640056416964167464004100000639991)
 (.leaf 64029641912064027641892640261640251640246402320064021640206418330000000)))
 (.node 2 (.node 1 (.leaf 64046640456420936404464208264043642052640426404164204306420216420116420010640366419826403516403416403310640316419320)
 (.leaf 640611640601640596405820640571640566422020640546421826421716405364052642166437764376564051642152642141642131640486421226421110))
 (.node 1 (.leaf 64241106439816407464236200642356439620064232164231164066642282640651064064640632640621)
 (.leaf 640946409320640921000640886424926408764086264247644082640851000000)))))
 (.node 8 (.node 4 (.node 2 (.node 1 (.leaf 641106427364434364272164108164270164107641062642681641051641031641021641011641001640991640981640971640961640951)
 (.leaf 64289100642841006428316428210000006427564436264274644352))
 (.node 1 (.leaf 6414464305264143641422000064299644582642981641361641356413464296644566445556413364295644543000641301641296412864290644494)
 (.leaf 643191643181641566431726415516431516415410064313100643101643091643086446820643061)))
 (.node 2 (.node 1 (.leaf 641751064333164172643322643316448920064330164168643292641661641656432720641646416326432410643221)
 (.leaf 6419010641886434826418716418664346264185164184164343164182643422641816434126434010064177164176643362))
 (.node 1 (.leaf 6436964527264207642066436864366645266452564524764365164203643642643636452226436216436110641996435920641971641966435826419564355264194164353164192643522)
 (.leaf 642231642221642211006421964380200645341064375164374106421064372200))))
 (.node 4 (.node 2 (.node 1 (.leaf 643991000643971006423364394200642306422964391364390106422764226643883642251642241)
 (.leaf 642541642531642526441320642511064248100642466424520642441064404645622644031644021))
 (.node 1 (.leaf 6443316427164432264269100642671642661642656426426426316426216426116426016425916425816425764256264255644162)
 (.leaf 64288100064602164443164280644422000642766443820000)))
 (.node 2 (.node 1 (.leaf 643041643036430264464300643016430026446064615264459164297164457646126461130064294642936461064609464292644532644526460726429164451646063644501)
 (.leaf 64481164478164477106431664475646313643146447464630364473100064471106446916462464623264467646222644661))
 (.node 1 (.leaf 643371644931643356449226433464491206464516448810064328164486164326164325644842064323644822)
 (.leaf 64354100643516451026435016434916434710006434564344206449916449864654264497646536465236433964338644963)))))))
 (.node 32 (.node 16 (.node 8 (.node 4 (.node 2 (.node 1 (.leaf 6437164370264528164681106452310645216467764676364520100643601645186451620643571643566451320)
 (.leaf 64386164385164384106438364382264381106437916437810006453316437364532200))
 (.node 1 (.leaf 6456110645571645561000647081643956455364707364552164393645512643926455020643891645471643871)
 (.leaf 64417645752064415644146457364729464572106441264411264569164410164409645672064407164406164405164718100)))
 (.node 2 (.node 1 (.leaf 6459264747647463644316459126443064590647453064429644286458830644276458626442664425264424645842064423644222644216457926442064578264419645772644181)
 (.leaf 6476264761264608100646051644441006460116444164440644396459840064437645972000))
 (.node 1 (.leaf 64774164465646212646201644636446264619647726477156446164618206461664769206461464766264613164764100)
 (.leaf 644851646406479026448364639206463716463610644766463220000644726462920644701646261))))
 (.node 4 (.node 2 (.node 1 (.leaf 6450164655264500100064495164649164494164647647982646461647971646446479626464310644871646421)
 (.leaf 645171064515646692645141064512646682645116466720645096466326450810645076466264812364506645056466136450464660264503646596481064809464502646582))
 (.node 1 (.leaf 6453164530645296468664684648376483576468310064682646806483364832464679648316483036467864829200006451910)
 (.leaf 6470516454964548647043006454664545264544164543164542106454164696264540645392645381646936484326453764536646923645356468920)))
 (.node 2 (.node 1 (.leaf 64564645632006471764867264716100064555647106486130064554647092648591648581647061)
 (.leaf 6458164735264580647342006457616473010064727648782647266487720648751647236487426456810645666456564722647204))
 (.node 1 (.leaf 64596647506490030645951645946474964898364593647482648976489620645891647441645871064741164585164583647392645821)
 (.leaf 64768164767647656491636491510000649101647601647591064757164600647566475436459964753649046490340)))))
 (.node 8 (.node 4 (.node 2 (.node 1 (.leaf 6462816462710646251647781064776649252647751649231647731064920164617647702)
 (.leaf 64648647992649486494720649461000064641647936494230000647881647851647841))
 (.node 1 (.leaf 6466464814200000064657164656648082000646511646501648001)
 (.leaf 648281648271006467564674648263646731646726467164822364821164670100064666646652)))
 (.node 2 (.node 1 (.leaf 6469716484810646956469464844300064691646906484264840649916499064989700646886468764839364838648366498530064983164834649822)
 (.leaf 6486216471116501165010206486016500810648571648561647036485526470264854206470116470064699648516500046469864850649993))
 (.node 1 (.leaf 648791006487665027650263650251064873650232006472116486916471964868650183006501610)
 (.leaf 6489565044264743648946504336474264893200647406489026473864889264737164736648852648841064733164732164731648802))))
 (.node 4 (.node 2 (.node 1 (.leaf 647631000649091006475510647526490226475164901206489910650476504620)
 (.leaf 64779649292647771649271065073164924650722064922650702649216491965069300649186506765066364917650652649146506465063300))
 (.node 1 (.leaf 64795164794649442006479264791649416493940647891006493416478316478210064781647802649301)
 (.leaf 64811100064807164806649562648056480464953306480364802649513648011000000)))
 (.node 2 (.node 1 (.leaf 648251648246497226482310064820164819649696496736481864817264816164964164815164813100)
 (.leaf 649926514020651386513720649881649871649866498465134300006497916497816497710))
 (.node 1 (.leaf 6500665155651543650051650046515326500365152651513648536500265150364852650016514936514816514716484964998651463648476499720648466484520)
 (.leaf 6487216487116501916487010000648666501526501410000))))))
 (.node 16 (.node 8 (.node 4 (.node 2 (.node 1 (.leaf 650391006488816488716488665034265033106488364882650316518146488165030651803650296517926502810065175165024651742)
 (.leaf 649061649056505520650511650506520026504965199651983006504865196200650451006489264891650423))
 (.node 1 (.leaf 65219106507116506865216200000652116521020649136491265062364911106505910)
 (.leaf 649386493765088306508610649331064932649312650791006507865224652233649286507726507665222264926650752650741)))
 (.node 2 (.node 1 (.leaf 64955651032649541651011649526510026509916495064949650983650971650966524320065095652402649456509465239364943650932000)
 (.leaf 649716497065119300649681649666511520649656511320649631649626511026496116496016495916495816495710))
 (.node 1 (.leaf 65136652822651356513365280652794006513216498164980651316512946512816512710064976651262064975649746512436497310)
 (.leaf 652981652971652961652956529426529316529210649966514565291364995649946499330000651396528420))))
 (.node 4 (.node 2 (.node 1 (.leaf 651671650176516665314300065164100651591650096515865304300650076515765303365156653026530165300400)
 (.leaf 6503565183265182100653271651781651771651761006517365321200650221650216502020))
 (.node 1 (.leaf 65193653402651921650416519126519016504016518816503865037265036651862)
 (.leaf 65217652152000653586535726521216535665355206520916506165060652083065206106505416505365052652036520140)))
 (.node 2 (.node 1 (.leaf 6508716523216508210650816508065227365226100000006521816536310)
 (.leaf 6524716524616524516524410006524216538416538310650926509165090652386523650650891652351652341))
 (.node 1 (.leaf 651186511765264365116106511410651126511126525616525516510916510816510765254265106651052065104165102652482)
 (.leaf 65281654246542336527810065130652772065273165272654172065125654152652711651231651221651211651206526520)))))
 (.node 8 (.node 4 (.node 2 (.node 1 (.leaf 6544016543910065437100651446514365142652904651416528920000065283654262654251)
 (.leaf 65165106516365311265310100653051000654461000654421654411))
 (.node 1 (.leaf 6532616532516532416532310654651653226532065464306546216517265171265170165168653152065313165312654562)
 (.leaf 6519716534410651956519420065339165338165189653372065187653356533330651851651846533226532910)))
 (.node 2 (.node 1 (.leaf 652146521365359306549865497265496106549416535365493265207653522065202165349165346100)
 (.leaf 65377655172065228165372106522510653681000652216522020000))
 (.node 1 (.leaf 653911065530165390653882655281065387165241100065382165237653816552130653796551965518365233653782)
 (.leaf 652631652621652616526020652591652581652571000652531652526539526525165250265249653932653921))))
 (.node 4 (.node 2 (.node 1 (.leaf 65557655562654226555520065276652756542165419655545654181652746555126541665550200652701652696541426526816526716526610)
 (.leaf 65574165438655736557236557110065436655692654351065433165288652876528665432406528510065427655592655581))
 (.node 1 (.leaf 654551006545410065449165448100000652996544426544310)
 (.leaf 653286547020654681654671654661065597165596106546365594265317654602654591653166545865591300)))
 (.node 2 (.node 1 (.leaf 653451065343165342653412000654821654811653366548020653341006533165330654733654721)
 (.leaf 65362653612653601000000656281653546549565627365626106534865347654903654896562220))
 (.node 1 (.leaf 65380655206565065649400000653711065370655102653696550926550810653676536665365655064065364655042)
 (.leaf 6539610653941655321000065529655276565830653866552565657656566565556538510065523165522656512)))))))))))))
 (.node 64 (.node 32 (.node 16 (.node 8 (.node 4 (.node 2 (.node 1 (.leaf 655496567320065548165547165413654126554630654116541026540910654001653991653981653971)
 (.leaf 65434165567165566165565165431654306556436542965428655633000006567810656771654201))
 (.node 1 (.leaf 655851000655791654476557826544565701206557716557665699656983655751656971000655701)
 (.leaf 65599100000655951654616559220655901655891654576558826571010655871655861)))
 (.node 2 (.node 1 (.leaf 6548565484656173656161654836561520065479656122654781654771654761654756560626547465605265604165471656036572665725465602657242654691656001)
 (.leaf 655001654996563220006574910657471656251065621657432654886562026548710065486656182))
 (.node 1 (.leaf 6564816564710655126551120000655071065505656362065503165502656332655011)
 (.leaf 65534165533165531656612656601000000655246565320065652100))))
 (.node 4 (.node 2 (.node 1 (.leaf 65679100065553655522000000656701000655351)
 (.leaf 65568100006568716556265561656863065560100))
 (.node 1 (.leaf 657116582765826300065709100065581657032655801000657006581565814300)
 (.leaf 65727100065601657236583836572216572116559810000657171655931657131657121)))
 (.node 2 (.node 1 (.leaf 65742658572656196574165856365740100657391657386585365852365737165614657366585036561365735265611656106573465732406560916560865731657293656076572865844658434)
 (.leaf 656386575926563716575716563565634206575665869206563165630657546575240656291000000))
 (.node 1 (.leaf 656541000658831657701657691065767106564265763265641656406576236563910)
 (.leaf 65793659056590436579216567510065672657882656716578720065662106578265780206565965778200)))))
 (.node 8 (.node 4 (.node 2 (.node 1 (.leaf 656936580926569265808206569165690658063656896580526580416568865803206568565801265684656832065682165681656802000)
 (.leaf 6570865824265707658232658221006581716570265816200659271065813659256592436581265923265696658116592236569565694658103))
 (.node 1 (.leaf 658371658361657201657191658331657181065716657156583265830465714165828100658256593620)
 (.leaf 65855659652658541000000657336584926584616573065845659553006584216584110)))
 (.node 2 (.node 1 (.leaf 65758658712000065755165753658676586536575165864265863165750165861165748106586010659661)
 (.leaf 65774106577316577265771200065768658822658811658801000657611657601658721))
 (.node 1 (.leaf 6578965900200657866589920006578110657791065777657762657751)
 (.leaf 658076591966018365918106591616580216591416580016579910657986579765910365796659092657956579420659061))))
 (.node 4 (.node 2 (.node 1 (.leaf 659341659336603326593216592916592866028660273006602616592666025660243006602210)
 (.leaf 659511065840165839106594616583565945265834659442659431006583165942659403658296593926593816593710))
 (.node 1 (.leaf 65964165963165851100659571658476595666056306595416595310)
 (.leaf 65879100000000658661065972165862659712000)))
 (.node 2 (.node 1 (.leaf 6599910000006588616588516599016588410006598710)
 (.leaf 65917660172660166609626601516591516591366013266091165912659116601166090466010660892660096608826600816590865907660076600540066004100))
 (.node 1 (.leaf 661151660321660311000066105100660231065921660212660201659206601920)
 (.leaf 6594816594766046266045166044166043100659416604266040306603816603716603666119265935100660341))))))
 (.node 16 (.node 8 (.node 4 (.node 2 (.node 1 (.leaf 659626596120006605710006605316605216595210659501659491)
 (.leaf 6598910659881659861000000))
 (.node 1 (.leaf 660971066095166014660946616436601266093661633660926616226616166160266159100660061660861066084100)
 (.leaf 661136618420006610716610666176200661756617426610410661711661011661001660991660981)))
 (.node 2 (.node 1 (.leaf 66127166126100661251660416612466122306603966120206611816603510000661141)
 (.leaf 661371660556613626605466135206613316605166132266050661312660496613026604866047661293661281))
 (.node 1 (.leaf 662241662231066158166087661572660856615620000000660741660731660721)
 (.leaf 662401662391066103662372661026617326617210661706623426616916616816616716616616616566229662283662271662261662251))))
 (.node 4 (.node 2 (.node 1 (.leaf 66191100661176619066188662524066116166249166186166185661836624730000000)
 (.leaf 662076627026626916620516620416620366267266202662652662011662001661991661981661971006619616612366195266121661922))
 (.node 1 (.leaf 662851006622216622116615516615410000662121661406621126621016613966209266138662082)
 (.leaf 6630010066298106623510662336629426623266293206623066291662903662891662881662871662861)))
 (.node 2 (.node 1 (.leaf 6625516625410006618710006624810662466630820000)
 (.leaf 66271663332066332663312662686633020662661663271662646632626626366325266262166261166260166259100661946619366258662564))
 (.node 1 (.leaf 6634710066344106628416628316628266341200066338166275166274166273166272663342)
 (.leaf 663011066238100066236662976635666355466296166295663546635330663526635126623166292663503663491663481)))))
 (.node 8 (.node 4 (.node 2 (.node 1 (.leaf 66257100662536631520066251663122662501006631016630910663076636820)
 (.leaf 66335106639566394206639316639216632966391266390166389100663241663236638426632216632110))
 (.node 1 (.leaf 6641310066411664102066409166346664082663451066343166342100663371663361)
 (.leaf 6636966430664293000000000662996635926635810000)))
 (.node 2 (.node 1 (.leaf 6638310066320166319166318663172663166637720663751663146637426631316637216631110663711663701)
 (.leaf 66398166397166396100000664521664511006638616638510))
 (.node 1 (.leaf 66415166414100000066407166406106640416640310)
 (.leaf 66432664952664311006642816648516648416642510664211006635710664161))))
 (.node 4 (.node 2 (.node 1 (.leaf 664491066445166444106638266442266381663806644136644010664381663761664366650066499306637366434200)
 (.leaf 66405664652000663996645926645810000000000))
 (.node 1 (.leaf 664206641926641866417200006647316641266470200000664661)
 (.leaf 6643316655010664941000006654210066540665392000)))
 (.node 2 (.node 1 (.leaf 664501066447664466650936650810066443665052066503166502166439665012000664356649766553366496665512)
 (.leaf 6646866467200066464664632006645766519266456664552066454166453665152000))
 (.node 1 (.leaf 665921665911665411000664766647566535366474665342006653310665291664691)
 (.leaf 6655916650410665561665556660526655416649816655210000066493664926654836654710)))))))
 (.node 32 (.node 16 (.node 8 (.node 4 (.node 2 (.node 1 (.leaf 6652010665181665171665161665141066567166513166512106656316656216650766506665613665601)
 (.leaf 665901666281000000000000665281))
 (.node 1 (.leaf 6655716660610666046664366642306660210666001006654966599266598166597106654410)
 (.leaf 66615166564106661210666101666091666081)))
 (.node 2 (.node 1 (.leaf 6660166638200666371666361666351006659366630200066589100)
 (.leaf 6665516661766616266653166614666522666131666501666111006664666682266645166644100666036664166678366640666762))
 (.node 1 (.leaf 6667316667216667166706266670166667166629106662716662610000000)
 (.leaf 6665110666876668566722366649666482666836671920666811666801666791000666776671226663966674200))))
 (.node 4 (.node 2 (.node 1 (.leaf 6670316666610000000006669010666881)
 (.leaf 667566675526671766754266716166715106671310667116674926667566710667483667471006670816670710))
 (.node 1 (.leaf 66770100000666911667261666891000066720667572)
 (.leaf 667911667146675266750667904667891006670966746200066744100066702100)))
 (.node 2 (.node 1 (.leaf 667691668021006676516672710667251066758100006675310)
 (.leaf 66785668192667456678420667431006674010006677310000668041))
 (.node 1 (.leaf 6680116680016679716679616679510000667921000000)
 (.leaf 6681116681010066809668452668081006680566803668413000)))))
 (.node 8 (.node 4 (.node 2 (.node 1 (.leaf 66831166830106679416679366827200006678866822206678766786206682010668181)
 (.leaf 66847166846100066844100000066873100668321))
 (.node 1 (.leaf 668636689920668266682520668241668581668216685726689210006685410000)
 (.leaf 6688110006684066875266839668382066874100066868166867166866106682866864669003)))
 (.node 2 (.node 1 (.leaf 6686116685910000668566685566891366890166889100066883166882100)
 (.leaf 66908166907100006690216690166939200668981668971668961))
 (.node 1 (.leaf 669291669286695926692716692610000006691716691610000)
 (.leaf 6694010669386697026693716693616693516693416689510668941000))))
 (.node 4 (.node 2 (.node 1 (.leaf 669611669601000000669511669151000000)
 (.leaf 669721006699810669671066933669652006693066962200))
 (.node 1 (.leaf 669641669636699026698910066988166987100006695016697910669496694820)
 (.leaf 670071669786697720669761000066971106699716702416699516699410669921)))
 (.node 2 (.node 1 (.leaf 6702316705210066991670192067017100670166704526701567044670433670141000670081)
 (.leaf 6700616700567033267004670032000006699916702510))
 (.node 1 (.leaf 67053106705116702267050267021670492670206704826701867047267046100000670421)
 (.leaf 670711670706709767096300067068100006703610670356703420067032670312))))))
 (.node 16 (.node 8 (.node 4 (.node 2 (.node 1 (.leaf 67062670612670606708620670591670581670571670561006707810067075167074100)
 (.leaf 6710316710216710116710016707367099671223670981670721067095167069670942000000))
 (.node 1 (.leaf 67119167118671162006711510067085100006710510)
 (.leaf 671291067127167104671262671251000671211671201)))
 (.node 2 (.node 1 (.leaf 67151167128106715067148671706716946714710000671421000067117671392671381)
 (.leaf 671671671661671461006716216716116714110671791671591671581000671521))
 (.node 1 (.leaf 67183167163167181106720116716067180671783006717710000000)
 (.leaf 67198100000067189167188100671851671651))))
 (.node 4 (.node 2 (.node 1 (.leaf 67209167208167187672072671861672051671841672031000)
 (.leaf 672311067229167206672282672271672261672251672241672021672221672006719920067220100))
 (.node 1 (.leaf 67247167246167245167223672442672431672211067242100000000)
 (.leaf 6726216726110067258100000672301672511672501672491672481)))
 (.node 2 (.node 1 (.leaf 67279167264672636727836727716727610067260672596727567273400000006726510)
 (.leaf 672951672946731526731410672746729320000000000672801))
 (.node 1 (.leaf 67299167298673192672971672961)
 (.leaf 673181000000)))))
 (.node 4 (.node 2 (.node 1 (.leaf 67317167316100000)
 (.leaf 673531000000000))
 (.node 1 (.leaf 673681673676737967378367366673772000000)
 (.leaf 6738010000)))
 (.node 1 (.leaf 674001000067397167396100)
 (.leaf 6739810000000)))))))

end WG
