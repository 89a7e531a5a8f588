import Verif.Model.DataTree

/-! Generated by `tools/gen_params.py`. -/

namespace WG

set_option maxRecDepth 100000

/-- Values of the runoff coefficient gamma, times 2^59. -/
def gammaData : DTree :=
 (.node 8192 (.node 4096 (.node 2048 (.node 1024 (.node 512 (.node 256 (.node 128 (.node 64 (.node 32 (.node 16 (.node 8 (.node 4 (.node 2 (.node 1 (.leaf 57646075230342352)
 (.leaf 57658344899791432))
 (.node 1 (.leaf 57675159028004328)
 (.leaf 57835485212776112)))
 (.node 2 (.node 1 (.leaf 57888794341223240)
 (.leaf 57889813639842696))
 (.node 1 (.leaf 58139464928215696)
 (.leaf 58168486931106472))))
 (.node 4 (.node 2 (.node 1 (.leaf 58169314259861792)
 (.leaf 58194298929460040))
 (.node 1 (.leaf 58199260234881560)
 (.leaf 58560230844567112)))
 (.node 2 (.node 1 (.leaf 58627933443326704)
 (.leaf 58669071348704920))
 (.node 1 (.leaf 58686282860556560)
 (.leaf 58690547626908696)))))
 (.node 8 (.node 4 (.node 2 (.node 1 (.leaf 58706209835731344)
 (.leaf 58739288244241896))
 (.node 1 (.leaf 58832011940749616)
 (.leaf 58846998614771752)))
 (.node 2 (.node 1 (.leaf 58908386806483072)
 (.leaf 58974439371068200))
 (.node 1 (.leaf 59063794799918912)
 (.leaf 59065747038455368))))
 (.node 4 (.node 2 (.node 1 (.leaf 59069656687724040)
 (.leaf 59221844432428216))
 (.node 1 (.leaf 59283814915461240)
 (.leaf 59493841936452032)))
 (.node 2 (.node 1 (.leaf 59764789179829272)
 (.leaf 59769169880651120))
 (.node 1 (.leaf 59777726108896976)
 (.leaf 59875777241887512))))))
 (.node 16 (.node 8 (.node 4 (.node 2 (.node 1 (.leaf 59891484140571960)
 (.leaf 59913001881155640))
 (.node 1 (.leaf 59949003478596432)
 (.leaf 60032548462361400)))
 (.node 2 (.node 1 (.leaf 60041372799021968)
 (.leaf 60162651470495432))
 (.node 1 (.leaf 60250647489215216)
 (.leaf 60296229542671936))))
 (.node 4 (.node 2 (.node 1 (.leaf 60522178275750664)
 (.leaf 60632461907566672))
 (.node 1 (.leaf 60799278285890624)
 (.leaf 60909626875602488)))
 (.node 2 (.node 1 (.leaf 60943975875096976)
 (.leaf 60975489007426624))
 (.node 1 (.leaf 60983805208371144)
 (.leaf 61158977805367608)))))
 (.node 8 (.node 4 (.node 2 (.node 1 (.leaf 61278819007844008)
 (.leaf 61288013179792784))
 (.node 1 (.leaf 61289035422769520)
 (.leaf 61297958239321184)))
 (.node 2 (.node 1 (.leaf 61526995324143976)
 (.leaf 61570766594125864))
 (.node 1 (.leaf 61656390516590376)
 (.leaf 61720954830466128))))
 (.node 4 (.node 2 (.node 1 (.leaf 61736583134148728)
 (.leaf 61741259293979344))
 (.node 1 (.leaf 61812766626001448)
 (.leaf 61959884582427720)))
 (.node 2 (.node 1 (.leaf 62055639652538808)
 (.leaf 62128911936245592))
 (.node 1 (.leaf 62194352506918960)
 (.leaf 62204025606516320)))))))
 (.node 32 (.node 16 (.node 8 (.node 4 (.node 2 (.node 1 (.leaf 62218992780578848)
 (.leaf 62233798955839912))
 (.node 1 (.leaf 62504335863527480)
 (.leaf 62822252653288256)))
 (.node 2 (.node 1 (.leaf 62823893345962112)
 (.leaf 62834799295015200))
 (.node 1 (.leaf 62915272962810120)
 (.leaf 62968413158524648))))
 (.node 4 (.node 2 (.node 1 (.leaf 62981991626633488)
 (.leaf 63087335467346488))
 (.node 1 (.leaf 63094505548814768)
 (.leaf 63120528494227600)))
 (.node 2 (.node 1 (.leaf 63216041846886072)
 (.leaf 63269919771914536))
 (.node 1 (.leaf 63422001896795648)
 (.leaf 63509380235534072)))))
 (.node 8 (.node 4 (.node 2 (.node 1 (.leaf 63541178499783848)
 (.leaf 63673454862658104))
 (.node 1 (.leaf 63705428219834568)
 (.leaf 63824375197793296)))
 (.node 2 (.node 1 (.leaf 63937367681889776)
 (.leaf 63954332427982368))
 (.node 1 (.leaf 63987256210027880)
 (.leaf 64172236602496896))))
 (.node 4 (.node 2 (.node 1 (.leaf 64230727109705984)
 (.leaf 64261709561688560))
 (.node 1 (.leaf 64439841835297816)
 (.leaf 64463715296206440)))
 (.node 2 (.node 1 (.leaf 64469225619225048)
 (.leaf 64504379292185728))
 (.node 1 (.leaf 64650392782401840)
 (.leaf 64678696123568736))))))
 (.node 16 (.node 8 (.node 4 (.node 2 (.node 1 (.leaf 64762755096569832)
 (.leaf 64774535709882392))
 (.node 1 (.leaf 64862678288512456)
 (.leaf 64914506082781552)))
 (.node 2 (.node 1 (.leaf 64983667467267944)
 (.leaf 65118217488987264))
 (.node 1 (.leaf 65179528324121728)
 (.leaf 65219039784638456))))
 (.node 4 (.node 2 (.node 1 (.leaf 65321934811267984)
 (.leaf 65335323859144232))
 (.node 1 (.leaf 65418551429196456)
 (.leaf 65430276394071592)))
 (.node 2 (.node 1 (.leaf 65485619000950848)
 (.leaf 65506021924567464))
 (.node 1 (.leaf 65518880880730224)
 (.leaf 65535396724953960)))))
 (.node 8 (.node 4 (.node 2 (.node 1 (.leaf 65568669091909568)
 (.leaf 65638929213676048))
 (.node 1 (.leaf 65661456682102672)
 (.leaf 65693591559149120)))
 (.node 2 (.node 1 (.leaf 65706729045166288)
 (.leaf 65775865571626552))
 (.node 1 (.leaf 65795647760855112)
 (.leaf 65807161340978512))))
 (.node 4 (.node 2 (.node 1 (.leaf 65903072729316880)
 (.leaf 66090839057394784))
 (.node 1 (.leaf 66159818015906440)
 (.leaf 66311088760259128)))
 (.node 2 (.node 1 (.leaf 66353013937264960)
 (.leaf 66406203735983024))
 (.node 1 (.leaf 66431720142980672)
 (.leaf 66446130940678168))))))))
 (.node 64 (.node 32 (.node 16 (.node 8 (.node 4 (.node 2 (.node 1 (.leaf 66463716925016232)
 (.leaf 66495572683998560))
 (.node 1 (.leaf 66559464328901952)
 (.leaf 66567525957878888)))
 (.node 2 (.node 1 (.leaf 66576318707612512)
 (.leaf 66600384699405232))
 (.node 1 (.leaf 66621756333753136)
 (.leaf 66767060921871456))))
 (.node 4 (.node 2 (.node 1 (.leaf 66827346489294600)
 (.leaf 66903617386638392))
 (.node 1 (.leaf 66936314127243960)
 (.leaf 66972349037809288)))
 (.node 2 (.node 1 (.leaf 67011710834668496)
 (.leaf 67040780297107056))
 (.node 1 (.leaf 67152306857078504)
 (.leaf 67188148648560512)))))
 (.node 8 (.node 4 (.node 2 (.node 1 (.leaf 67302355758274088)
 (.leaf 67604350302106504))
 (.node 1 (.leaf 67743933874452728)
 (.leaf 67861434732146848)))
 (.node 2 (.node 1 (.leaf 67876798844659184)
 (.leaf 67923619070985496))
 (.node 1 (.leaf 67924508313901472)
 (.leaf 67952592907686064))))
 (.node 4 (.node 2 (.node 1 (.leaf 67978266015452664)
 (.leaf 67994219222574056))
 (.node 1 (.leaf 68075803884691232)
 (.leaf 68087802701265776)))
 (.node 2 (.node 1 (.leaf 68156024844736656)
 (.leaf 68179028291366984))
 (.node 1 (.leaf 68213354073290560)
 (.leaf 68221227241161200))))))
 (.node 16 (.node 8 (.node 4 (.node 2 (.node 1 (.leaf 68311005069004112)
 (.leaf 68322776975199072))
 (.node 1 (.leaf 68347606541689344)
 (.leaf 68424983260485936)))
 (.node 2 (.node 1 (.leaf 68433300232080368)
 (.leaf 68438164754481640))
 (.node 1 (.leaf 68441581161097032)
 (.leaf 68456839451654488))))
 (.node 4 (.node 2 (.node 1 (.leaf 68646199956623408)
 (.leaf 68684336885280144))
 (.node 1 (.leaf 68690676149262096)
 (.leaf 68741955909875240)))
 (.node 2 (.node 1 (.leaf 68757566012814184)
 (.leaf 68824187871831072))
 (.node 1 (.leaf 68835937479041128)
 (.leaf 68958823864277872)))))
 (.node 8 (.node 4 (.node 2 (.node 1 (.leaf 68973296116632360)
 (.leaf 69029782839524968))
 (.node 1 (.leaf 69089393209658384)
 (.leaf 69097205507637096)))
 (.node 2 (.node 1 (.leaf 69135166687331120)
 (.leaf 69138239942306760))
 (.node 1 (.leaf 69270484865002184)
 (.leaf 69297791760080680))))
 (.node 4 (.node 2 (.node 1 (.leaf 69299990914915576)
 (.leaf 69306368627270720))
 (.node 1 (.leaf 69349466909238632)
 (.leaf 69361330161318624)))
 (.node 2 (.node 1 (.leaf 69433925620139576)
 (.leaf 69514067179567664))
 (.node 1 (.leaf 69653655293309048)
 (.leaf 69684557522955192)))))))
 (.node 32 (.node 16 (.node 8 (.node 4 (.node 2 (.node 1 (.leaf 69871841801911048)
 (.leaf 69878721115632256))
 (.node 1 (.leaf 69881726968328216)
 (.leaf 69884341801889656)))
 (.node 2 (.node 1 (.leaf 70015713915596520)
 (.leaf 70041373182885120))
 (.node 1 (.leaf 70130909788659736)
 (.leaf 70193063339064696))))
 (.node 4 (.node 2 (.node 1 (.leaf 70201885599974256)
 (.leaf 70255721123464656))
 (.node 1 (.leaf 70278293700100160)
 (.leaf 70290861685464304)))
 (.node 2 (.node 1 (.leaf 70320067088011568)
 (.leaf 70328007599172256))
 (.node 1 (.leaf 70333708316423936)
 (.leaf 70356586372843304)))))
 (.node 8 (.node 4 (.node 2 (.node 1 (.leaf 70359975024042712)
 (.leaf 70453717541075648))
 (.node 1 (.leaf 70456090655219384)
 (.leaf 70469409798670296)))
 (.node 2 (.node 1 (.leaf 70525086334099848)
 (.leaf 70553019348566840))
 (.node 1 (.leaf 70618522221986664)
 (.leaf 70709003061922736))))
 (.node 4 (.node 2 (.node 1 (.leaf 70731004401371728)
 (.leaf 70847699718563944))
 (.node 1 (.leaf 70941158768049800)
 (.leaf 70947795306641760)))
 (.node 2 (.node 1 (.leaf 71017640264696864)
 (.leaf 71218117302363560))
 (.node 1 (.leaf 71251730964428784)
 (.leaf 71274173490022944))))))
 (.node 16 (.node 8 (.node 4 (.node 2 (.node 1 (.leaf 71419459243023768)
 (.leaf 71493175801766824))
 (.node 1 (.leaf 71601998728051088)
 (.leaf 71703703087358352)))
 (.node 2 (.node 1 (.leaf 71742342351372328)
 (.leaf 71766077040609128))
 (.node 1 (.leaf 71791939429513928)
 (.leaf 71791949294163392))))
 (.node 4 (.node 2 (.node 1 (.leaf 71828635624073096)
 (.leaf 71838072346617120))
 (.node 1 (.leaf 71955658040544016)
 (.leaf 71976365113537696)))
 (.node 2 (.node 1 (.leaf 72006629694053064)
 (.leaf 72011588502727136))
 (.node 1 (.leaf 72055099832452064)
 (.leaf 72066547738257584)))))
 (.node 8 (.node 4 (.node 2 (.node 1 (.leaf 72202294209943792)
 (.leaf 72206678700727680))
 (.node 1 (.leaf 72338864140205104)
 (.leaf 72399507316735456)))
 (.node 2 (.node 1 (.leaf 72410638337583968)
 (.leaf 72446451115380848))
 (.node 1 (.leaf 72620298277963056)
 (.leaf 72630589118209472))))
 (.node 4 (.node 2 (.node 1 (.leaf 72651068064219008)
 (.leaf 72677316098521744))
 (.node 1 (.leaf 72747207873792688)
 (.leaf 72761139360905056)))
 (.node 2 (.node 1 (.leaf 72784869630636672)
 (.leaf 72791945790345472))
 (.node 1 (.leaf 72811883835995488)
 (.leaf 72849726583151168)))))))))
 (.node 128 (.node 64 (.node 32 (.node 16 (.node 8 (.node 4 (.node 2 (.node 1 (.leaf 72897434776828368)
 (.leaf 72950745507429760))
 (.node 1 (.leaf 73005480321483120)
 (.leaf 73040618216400576)))
 (.node 2 (.node 1 (.leaf 73204173976439296)
 (.leaf 73321679090382320))
 (.node 1 (.leaf 73331451595028144)
 (.leaf 73334617607546192))))
 (.node 4 (.node 2 (.node 1 (.leaf 73570101641259392)
 (.leaf 73599254276718272))
 (.node 1 (.leaf 73669946478092416)
 (.leaf 73838797106767488)))
 (.node 2 (.node 1 (.leaf 73840378082250832)
 (.leaf 73935756801657184))
 (.node 1 (.leaf 73981389508432320)
 (.leaf 74007468190094960)))))
 (.node 8 (.node 4 (.node 2 (.node 1 (.leaf 74038184278750528)
 (.leaf 74041772709171856))
 (.node 1 (.leaf 74089426114245392)
 (.leaf 74102122962306432)))
 (.node 2 (.node 1 (.leaf 74113115377678736)
 (.leaf 74117704793836784))
 (.node 1 (.leaf 74246651564781152)
 (.leaf 74273318508581664))))
 (.node 4 (.node 2 (.node 1 (.leaf 74298462447079424)
 (.leaf 74369764574566720))
 (.node 1 (.leaf 74397330602388928)
 (.leaf 74448915208593328)))
 (.node 2 (.node 1 (.leaf 74534082064621504)
 (.leaf 74637528502268368))
 (.node 1 (.leaf 74646356419487264)
 (.leaf 74692102485088080))))))
 (.node 16 (.node 8 (.node 4 (.node 2 (.node 1 (.leaf 74746479899581456)
 (.leaf 74841931254602272))
 (.node 1 (.leaf 74866735019186176)
 (.leaf 74947803041186576)))
 (.node 2 (.node 1 (.leaf 74991985483455216)
 (.leaf 75036159224084208))
 (.node 1 (.leaf 75042735259751712)
 (.leaf 75093353996001104))))
 (.node 4 (.node 2 (.node 1 (.leaf 75110943851647760)
 (.leaf 75157053284748896))
 (.node 1 (.leaf 75214709119935168)
 (.leaf 75273837133152752)))
 (.node 2 (.node 1 (.leaf 75387454054542720)
 (.leaf 75465798723685088))
 (.node 1 (.leaf 75561192270321584)
 (.leaf 75721017872151568)))))
 (.node 8 (.node 4 (.node 2 (.node 1 (.leaf 75727846140772496)
 (.leaf 75761895957008384))
 (.node 1 (.leaf 75767461790565040)
 (.leaf 75785629911046464)))
 (.node 2 (.node 1 (.leaf 75786692472051328)
 (.leaf 75906486938058304))
 (.node 1 (.leaf 75909961737791840)
 (.leaf 75914118052758496))))
 (.node 4 (.node 2 (.node 1 (.leaf 75953086770853248)
 (.leaf 76042458778181392))
 (.node 1 (.leaf 76112211612707984)
 (.leaf 76133192911297088)))
 (.node 2 (.node 1 (.leaf 76197388412134416)
 (.leaf 76201805438474480))
 (.node 1 (.leaf 76298234973181152)
 (.leaf 76342039617862992)))))))
 (.node 32 (.node 16 (.node 8 (.node 4 (.node 2 (.node 1 (.leaf 76383487280126336)
 (.leaf 76444007791760848))
 (.node 1 (.leaf 76478162279484688)
 (.leaf 76478450189816864)))
 (.node 2 (.node 1 (.leaf 76525308270534432)
 (.leaf 76572250438086320))
 (.node 1 (.leaf 76586177863644800)
 (.leaf 76590345999580144))))
 (.node 4 (.node 2 (.node 1 (.leaf 76669537140734112)
 (.leaf 76695567184271552))
 (.node 1 (.leaf 76711223465232080)
 (.leaf 76786346522173488)))
 (.node 2 (.node 1 (.leaf 76925348457831632)
 (.leaf 76978564373785456))
 (.node 1 (.leaf 76981442153398992)
 (.leaf 77038191609336272)))))
 (.node 8 (.node 4 (.node 2 (.node 1 (.leaf 77048053650245792)
 (.leaf 77067975252316080))
 (.node 1 (.leaf 77101750542218704)
 (.leaf 77191621488631136)))
 (.node 2 (.node 1 (.leaf 77213175385437280)
 (.leaf 77239577825752624))
 (.node 1 (.leaf 77282232278971472)
 (.leaf 77410866033277728))))
 (.node 4 (.node 2 (.node 1 (.leaf 77524337260045024)
 (.leaf 77527987568996848))
 (.node 1 (.leaf 77531143170524016)
 (.leaf 77581351422102640)))
 (.node 2 (.node 1 (.leaf 77640018718571664)
 (.leaf 77646850202840320))
 (.node 1 (.leaf 77647727234807184)
 (.leaf 77661329683036400))))))
 (.node 16 (.node 8 (.node 4 (.node 2 (.node 1 (.leaf 77703040572566144)
 (.leaf 77782290271385824))
 (.node 1 (.leaf 77806191129123600)
 (.leaf 77851317491542784)))
 (.node 2 (.node 1 (.leaf 77897858934043312)
 (.leaf 77909629450016192))
 (.node 1 (.leaf 77955854450165184)
 (.leaf 77959508088787808))))
 (.node 4 (.node 2 (.node 1 (.leaf 77973365309872608)
 (.leaf 77980800124774816))
 (.node 1 (.leaf 78266825969332784)
 (.leaf 78303922803486176)))
 (.node 2 (.node 1 (.leaf 78328379490615232)
 (.leaf 78332737982683168))
 (.node 1 (.leaf 78416463763064624)
 (.leaf 78433008585484368)))))
 (.node 8 (.node 4 (.node 2 (.node 1 (.leaf 78458039967757648)
 (.leaf 78553302336163792))
 (.node 1 (.leaf 78616286410886880)
 (.leaf 78618409411589232)))
 (.node 2 (.node 1 (.leaf 78624286701554688)
 (.leaf 78752894930650032))
 (.node 1 (.leaf 78756511906674800)
 (.leaf 78771883582128304))))
 (.node 4 (.node 2 (.node 1 (.leaf 78906540368190976)
 (.leaf 79106372075180592))
 (.node 1 (.leaf 79153321217664208)
 (.leaf 79163708435782672)))
 (.node 2 (.node 1 (.leaf 79293512836526896)
 (.leaf 79393458037278416))
 (.node 1 (.leaf 79443655372298096)
 (.leaf 79517518622411744))))))))
 (.node 64 (.node 32 (.node 16 (.node 8 (.node 4 (.node 2 (.node 1 (.leaf 79534279102659600)
 (.leaf 79577093800073712))
 (.node 1 (.leaf 79597921638701968)
 (.leaf 79659807896948032)))
 (.node 2 (.node 1 (.leaf 79705766552190880)
 (.leaf 79712384489605232))
 (.node 1 (.leaf 79715653381989824)
 (.leaf 79715900132697136))))
 (.node 4 (.node 2 (.node 1 (.leaf 79759181609650640)
 (.leaf 79774243316147184))
 (.node 1 (.leaf 79815158862070336)
 (.leaf 79899213254193712)))
 (.node 2 (.node 1 (.leaf 79989121261004928)
 (.leaf 79992688661029488))
 (.node 1 (.leaf 80083177480090240)
 (.leaf 80116012442017840)))))
 (.node 8 (.node 4 (.node 2 (.node 1 (.leaf 80146217311817040)
 (.leaf 80212496105529536))
 (.node 1 (.leaf 80272793161813280)
 (.leaf 80292329446175840)))
 (.node 2 (.node 1 (.leaf 80316217271680112)
 (.leaf 80388127580443280))
 (.node 1 (.leaf 80413446116771472)
 (.leaf 80482151081696912))))
 (.node 4 (.node 2 (.node 1 (.leaf 80486497223795584)
 (.leaf 80564699397290816))
 (.node 1 (.leaf 80573300452166960)
 (.leaf 80575304861894704)))
 (.node 2 (.node 1 (.leaf 80623270931461456)
 (.leaf 80674521843508544))
 (.node 1 (.leaf 80677967067312784)
 (.leaf 80683366136866464))))))
 (.node 16 (.node 8 (.node 4 (.node 2 (.node 1 (.leaf 80766789395531488)
 (.leaf 80912889192013328))
 (.node 1 (.leaf 80926537024364752)
 (.leaf 80949399184270128)))
 (.node 2 (.node 1 (.leaf 80960366781289408)
 (.leaf 81054067908059184))
 (.node 1 (.leaf 81075175860931488)
 (.leaf 81101218546969248))))
 (.node 4 (.node 2 (.node 1 (.leaf 81177186036752432)
 (.leaf 81220455040267264))
 (.node 1 (.leaf 81248344438669024)
 (.leaf 81249425693562416)))
 (.node 2 (.node 1 (.leaf 81389078968268864)
 (.leaf 81391772555530688))
 (.node 1 (.leaf 81454999764528912)
 (.leaf 81467574784001632)))))
 (.node 8 (.node 4 (.node 2 (.node 1 (.leaf 81476832938285600)
 (.leaf 81538299297338960))
 (.node 1 (.leaf 81538568567590432)
 (.leaf 81552979808447264)))
 (.node 2 (.node 1 (.leaf 81626797874025632)
 (.leaf 81656991050194880))
 (.node 1 (.leaf 81783571399215840)
 (.leaf 81805710514240320))))
 (.node 4 (.node 2 (.node 1 (.leaf 81926212942070656)
 (.leaf 81947706156794928))
 (.node 1 (.leaf 82077954510920400)
 (.leaf 82097142035180400)))
 (.node 2 (.node 1 (.leaf 82108207980501808)
 (.leaf 82197814789050400))
 (.node 1 (.leaf 82230370855008576)
 (.leaf 82230751854972688)))))))
 (.node 32 (.node 16 (.node 8 (.node 4 (.node 2 (.node 1 (.leaf 82233085364961600)
 (.leaf 82323784663904624))
 (.node 1 (.leaf 82386862934451856)
 (.leaf 82418171839549040)))
 (.node 2 (.node 1 (.leaf 82437847158138112)
 (.leaf 82486439618603056))
 (.node 1 (.leaf 82568620563710016)
 (.leaf 82718762011893344))))
 (.node 4 (.node 2 (.node 1 (.leaf 82754051343022176)
 (.leaf 82769615793547472))
 (.node 1 (.leaf 82771246719805216)
 (.leaf 82802027981753808)))
 (.node 2 (.node 1 (.leaf 82860361127531120)
 (.leaf 82884969030885952))
 (.node 1 (.leaf 82908295008503344)
 (.leaf 82946617879727232)))))
 (.node 8 (.node 4 (.node 2 (.node 1 (.leaf 82954334711538048)
 (.leaf 82979497381536352))
 (.node 1 (.leaf 83039047233956624)
 (.leaf 83044148654453008)))
 (.node 2 (.node 1 (.leaf 83107153737065120)
 (.leaf 83132861167647264))
 (.node 1 (.leaf 83147490901202944)
 (.leaf 83150569991149984))))
 (.node 4 (.node 2 (.node 1 (.leaf 83158382784890032)
 (.leaf 83227136347766752))
 (.node 1 (.leaf 83230043117250496)
 (.leaf 83302270296775248)))
 (.node 2 (.node 1 (.leaf 83438002435901936)
 (.leaf 83498088333479584))
 (.node 1 (.leaf 83540870234791728)
 (.leaf 83541485010313584))))))
 (.node 16 (.node 8 (.node 4 (.node 2 (.node 1 (.leaf 83595168345566912)
 (.leaf 83604364392870896))
 (.node 1 (.leaf 83606003942873808)
 (.leaf 83672920423689600)))
 (.node 2 (.node 1 (.leaf 83790064127388704)
 (.leaf 83810810323861216))
 (.node 1 (.leaf 83882128448052192)
 (.leaf 83931841094386512))))
 (.node 4 (.node 2 (.node 1 (.leaf 83961826701331568)
 (.leaf 83967321217511520))
 (.node 1 (.leaf 83968683633594160)
 (.leaf 84018788718055456)))
 (.node 2 (.node 1 (.leaf 84022584525147408)
 (.leaf 84053362168427776))
 (.node 1 (.leaf 84063262054219920)
 (.leaf 84085281132665072)))))
 (.node 8 (.node 4 (.node 2 (.node 1 (.leaf 84123681051230944)
 (.leaf 84126641685974528))
 (.node 1 (.leaf 84134308576483760)
 (.leaf 84165919502386016)))
 (.node 2 (.node 1 (.leaf 84175447340280400)
 (.leaf 84421011488448592))
 (.node 1 (.leaf 84432483498804128)
 (.leaf 84525210043047968))))
 (.node 4 (.node 2 (.node 1 (.leaf 84573397367696208)
 (.leaf 84573404109909504))
 (.node 1 (.leaf 84740578806583392)
 (.leaf 84774093588097584)))
 (.node 2 (.node 1 (.leaf 84787356079626240)
 (.leaf 84857025754629312))
 (.node 1 (.leaf 84858833785950288)
 (.leaf 84883686549402016))))))))))
 (.node 256 (.node 128 (.node 64 (.node 32 (.node 16 (.node 8 (.node 4 (.node 2 (.node 1 (.leaf 84902254441086864)
 (.leaf 84917137367742336))
 (.node 1 (.leaf 84945069847756832)
 (.leaf 85005013941782448)))
 (.node 2 (.node 1 (.leaf 85011268260381264)
 (.leaf 85012710422230144))
 (.node 1 (.leaf 85016280216082160)
 (.leaf 85017654063584480))))
 (.node 4 (.node 2 (.node 1 (.leaf 85064558190329520)
 (.leaf 85066775763602944))
 (.node 1 (.leaf 85131450062764272)
 (.leaf 85135617116779392)))
 (.node 2 (.node 1 (.leaf 85169759261043536)
 (.leaf 85181529609896912))
 (.node 1 (.leaf 85228244164943664)
 (.leaf 85349467476422400)))))
 (.node 8 (.node 4 (.node 2 (.node 1 (.leaf 85518684595057168)
 (.leaf 85557849297332464))
 (.node 1 (.leaf 85570662339402864)
 (.leaf 85602607958197184)))
 (.node 2 (.node 1 (.leaf 85649483837548272)
 (.leaf 85652923152326688))
 (.node 1 (.leaf 85702070106881616)
 (.leaf 85768467056520208))))
 (.node 4 (.node 2 (.node 1 (.leaf 85786392696298832)
 (.leaf 85793715606463552))
 (.node 1 (.leaf 85841227827376800)
 (.leaf 85858308883668160)))
 (.node 2 (.node 1 (.leaf 86041738875476288)
 (.leaf 86070947098446560))
 (.node 1 (.leaf 86149283012253040)
 (.leaf 86170274621803200))))))
 (.node 16 (.node 8 (.node 4 (.node 2 (.node 1 (.leaf 86247793181531104)
 (.leaf 86257483210973360))
 (.node 1 (.leaf 86267513699998480)
 (.leaf 86370260055588864)))
 (.node 2 (.node 1 (.leaf 86417494438129680)
 (.leaf 86442862154440032))
 (.node 1 (.leaf 86642401354821456)
 (.leaf 86687412356347232))))
 (.node 4 (.node 2 (.node 1 (.leaf 86735985800195600)
 (.leaf 86793260910469680))
 (.node 1 (.leaf 86847351626349552)
 (.leaf 87141036855712240)))
 (.node 2 (.node 1 (.leaf 87203189430886560)
 (.leaf 87205747658277296))
 (.node 1 (.leaf 87274043284746112)
 (.leaf 87275384390367920)))))
 (.node 8 (.node 4 (.node 2 (.node 1 (.leaf 87363986243249360)
 (.leaf 87382113116916304))
 (.node 1 (.leaf 87382389448466000)
 (.leaf 87396481002190672)))
 (.node 2 (.node 1 (.leaf 87443517116111344)
 (.leaf 87460642878426160))
 (.node 1 (.leaf 87488119324121840)
 (.leaf 87541500378165824))))
 (.node 4 (.node 2 (.node 1 (.leaf 87549661705542304)
 (.leaf 87549793294682112))
 (.node 1 (.leaf 87550538125455536)
 (.leaf 87566038860726944)))
 (.node 2 (.node 1 (.leaf 87566814255165024)
 (.leaf 87613781458167360))
 (.node 1 (.leaf 87624359465705392)
 (.leaf 87789471438561136)))))))
 (.node 32 (.node 16 (.node 8 (.node 4 (.node 2 (.node 1 (.leaf 87868755732090544)
 (.leaf 87879416061404000))
 (.node 1 (.leaf 87881852724562672)
 (.leaf 87894772257345776)))
 (.node 2 (.node 1 (.leaf 87967142591327392)
 (.leaf 88199584964573280))
 (.node 1 (.leaf 88214884848020560)
 (.leaf 88219168374720928))))
 (.node 4 (.node 2 (.node 1 (.leaf 88287845432142208)
 (.leaf 88310164436582848))
 (.node 1 (.leaf 88342172238599088)
 (.leaf 88364998489783536)))
 (.node 2 (.node 1 (.leaf 88377952848708512)
 (.leaf 88420242022632848))
 (.node 1 (.leaf 88448064881393792)
 (.leaf 88497388504999744)))))
 (.node 8 (.node 4 (.node 2 (.node 1 (.leaf 88589310330550016)
 (.leaf 88590468013827792))
 (.node 1 (.leaf 88615361963426576)
 (.leaf 88638261319825520)))
 (.node 2 (.node 1 (.leaf 88648022935269600)
 (.leaf 88651998817765296))
 (.node 1 (.leaf 88664225702096496)
 (.leaf 88671687281812944))))
 (.node 4 (.node 2 (.node 1 (.leaf 88735773352706704)
 (.leaf 88749465450651136))
 (.node 1 (.leaf 88886094871944896)
 (.leaf 88887497611975856)))
 (.node 2 (.node 1 (.leaf 88902320278961392)
 (.leaf 88988095653498032))
 (.node 1 (.leaf 89000039915304336)
 (.leaf 89003842059526528))))))
 (.node 16 (.node 8 (.node 4 (.node 2 (.node 1 (.leaf 89086628880234848)
 (.leaf 89128495051098016))
 (.node 1 (.leaf 89160185233253504)
 (.leaf 89167239887108528)))
 (.node 2 (.node 1 (.leaf 89202640034715920)
 (.leaf 89244001798996480))
 (.node 1 (.leaf 89259339247170016)
 (.leaf 89322382174512080))))
 (.node 4 (.node 2 (.node 1 (.leaf 89389575098769744)
 (.leaf 89393213599227664))
 (.node 1 (.leaf 89468109920055936)
 (.leaf 89498414035274416)))
 (.node 2 (.node 1 (.leaf 89618195009620656)
 (.leaf 89656839930863888))
 (.node 1 (.leaf 89692756466067008)
 (.leaf 89701380503847200)))))
 (.node 8 (.node 4 (.node 2 (.node 1 (.leaf 89824537117229904)
 (.leaf 89827478958522592))
 (.node 1 (.leaf 89830751868217088)
 (.leaf 89831295788714080)))
 (.node 2 (.node 1 (.leaf 89858993356038480)
 (.leaf 89872630157412128))
 (.node 1 (.leaf 89905113095822112)
 (.leaf 89910566655675552))))
 (.node 4 (.node 2 (.node 1 (.leaf 89942831282540176)
 (.leaf 90011643150271024))
 (.node 1 (.leaf 90079385551169776)
 (.leaf 90151464541168160)))
 (.node 2 (.node 1 (.leaf 90155373742383696)
 (.leaf 90183531996653472))
 (.node 1 (.leaf 90207274383744416)
 (.leaf 90285331805210192))))))))
 (.node 64 (.node 32 (.node 16 (.node 8 (.node 4 (.node 2 (.node 1 (.leaf 90302594448084400)
 (.leaf 90341348552389152))
 (.node 1 (.leaf 90393557264669184)
 (.leaf 90475287362671440)))
 (.node 2 (.node 1 (.leaf 90521543106569600)
 (.leaf 90719588085265040))
 (.node 1 (.leaf 90746903835024016)
 (.leaf 90766023559650624))))
 (.node 4 (.node 2 (.node 1 (.leaf 90778343011781968)
 (.leaf 90798301011605776))
 (.node 1 (.leaf 90800789742080448)
 (.leaf 90817564264012608)))
 (.node 2 (.node 1 (.leaf 90830834816401328)
 (.leaf 90911052845412112))
 (.node 1 (.leaf 90915835158459232)
 (.leaf 90919017221690656)))))
 (.node 8 (.node 4 (.node 2 (.node 1 (.leaf 90940478021724064)
 (.leaf 90980664980610608))
 (.node 1 (.leaf 90982824762365040)
 (.leaf 90999494709964976)))
 (.node 2 (.node 1 (.leaf 91057065648329456)
 (.leaf 91087766305398336))
 (.node 1 (.leaf 91096841674221680)
 (.leaf 91145030188288064))))
 (.node 4 (.node 2 (.node 1 (.leaf 91146798689838880)
 (.leaf 91199895770958080))
 (.node 1 (.leaf 91211472117477216)
 (.leaf 91354097580437872)))
 (.node 2 (.node 1 (.leaf 91404723303195520)
 (.leaf 91453638319449584))
 (.node 1 (.leaf 91557548262065472)
 (.leaf 91574458251369552))))))
 (.node 16 (.node 8 (.node 4 (.node 2 (.node 1 (.leaf 91584834859795792)
 (.leaf 91646704182260832))
 (.node 1 (.leaf 91674524950273280)
 (.leaf 91708058505515648)))
 (.node 2 (.node 1 (.leaf 91718566250223280)
 (.leaf 91829367461658944))
 (.node 1 (.leaf 91837496583368528)
 (.leaf 91842167499693072))))
 (.node 4 (.node 2 (.node 1 (.leaf 91953827508064096)
 (.leaf 92002951779334608))
 (.node 1 (.leaf 92075836175326144)
 (.leaf 92227984334417072)))
 (.node 2 (.node 1 (.leaf 92242275523268624)
 (.leaf 92306862112672624))
 (.node 1 (.leaf 92314010897467744)
 (.leaf 92399252032583152)))))
 (.node 8 (.node 4 (.node 2 (.node 1 (.leaf 92435424378341920)
 (.leaf 92493795726989568))
 (.node 1 (.leaf 92603971700020832)
 (.leaf 92696422438208480)))
 (.node 2 (.node 1 (.leaf 92818257155794448)
 (.leaf 92833976069085488))
 (.node 1 (.leaf 92858601737858800)
 (.leaf 92894426751286320))))
 (.node 4 (.node 2 (.node 1 (.leaf 92902108965964256)
 (.leaf 92903185797049136))
 (.node 1 (.leaf 92939620268822800)
 (.leaf 92954801666630064)))
 (.node 2 (.node 1 (.leaf 93016393655997488)
 (.leaf 93078726783357072))
 (.node 1 (.leaf 93195183510860768)
 (.leaf 93214493466253760)))))))
 (.node 32 (.node 16 (.node 8 (.node 4 (.node 2 (.node 1 (.leaf 93220233624101744)
 (.leaf 93249044391628912))
 (.node 1 (.leaf 93253018497238928)
 (.leaf 93276747555531584)))
 (.node 2 (.node 1 (.leaf 93373936773756096)
 (.leaf 93395693323919664))
 (.node 1 (.leaf 93395822630338880)
 (.leaf 93447657912206768))))
 (.node 4 (.node 2 (.node 1 (.leaf 93461729502815152)
 (.leaf 93592438821184528))
 (.node 1 (.leaf 93704935960149872)
 (.leaf 93713144913804448)))
 (.node 2 (.node 1 (.leaf 93736241678463296)
 (.leaf 93777209096497040))
 (.node 1 (.leaf 93792764056042448)
 (.leaf 93803115559747040)))))
 (.node 8 (.node 4 (.node 2 (.node 1 (.leaf 93817773992897008)
 (.leaf 93965022088540544))
 (.node 1 (.leaf 93972611412196736)
 (.leaf 93972972807016128)))
 (.node 2 (.node 1 (.leaf 93994525586825872)
 (.leaf 94082849389273184))
 (.node 1 (.leaf 94139612467670128)
 (.leaf 94153117723424976))))
 (.node 4 (.node 2 (.node 1 (.leaf 94153756696827104)
 (.leaf 94163058510407456))
 (.node 1 (.leaf 94178284764734320)
 (.leaf 94213996837810240)))
 (.node 2 (.node 1 (.leaf 94226454364382624)
 (.leaf 94248933215905760))
 (.node 1 (.leaf 94283671118523968)
 (.leaf 94301348451719408))))))
 (.node 16 (.node 8 (.node 4 (.node 2 (.node 1 (.leaf 94325664212548464)
 (.leaf 94335275974443040))
 (.node 1 (.leaf 94380266871414352)
 (.leaf 94399295506610752)))
 (.node 2 (.node 1 (.leaf 94513950517949376)
 (.leaf 94566835399581168))
 (.node 1 (.leaf 94646845176420288)
 (.leaf 94686712187501376))))
 (.node 4 (.node 2 (.node 1 (.leaf 94699512281460624)
 (.leaf 94796944360677872))
 (.node 1 (.leaf 94881847819819264)
 (.leaf 94893241585481280)))
 (.node 2 (.node 1 (.leaf 94941815333194624)
 (.leaf 94949265395902928))
 (.node 1 (.leaf 94967636043622128)
 (.leaf 94974024559210400)))))
 (.node 8 (.node 4 (.node 2 (.node 1 (.leaf 95011543282073040)
 (.leaf 95012896848987088))
 (.node 1 (.leaf 95027257031813904)
 (.leaf 95113619024689072)))
 (.node 2 (.node 1 (.leaf 95130887711398768)
 (.leaf 95150657828454272))
 (.node 1 (.leaf 95204138054900832)
 (.leaf 95258349919703760))))
 (.node 4 (.node 2 (.node 1 (.leaf 95347262169831840)
 (.leaf 95369391383399136))
 (.node 1 (.leaf 95369391383399184)
 (.leaf 95461728222416144)))
 (.node 2 (.node 1 (.leaf 95554867673082208)
 (.leaf 95563082651787136))
 (.node 1 (.leaf 95575531029878080)
 (.leaf 95591739667583792)))))))))
 (.node 128 (.node 64 (.node 32 (.node 16 (.node 8 (.node 4 (.node 2 (.node 1 (.leaf 95595260413108528)
 (.leaf 95597703376053920))
 (.node 1 (.leaf 95600187957571712)
 (.leaf 95655463026622992)))
 (.node 2 (.node 1 (.leaf 95688218736356048)
 (.leaf 95697448681638640))
 (.node 1 (.leaf 95760996488020016)
 (.leaf 95790948221814672))))
 (.node 4 (.node 2 (.node 1 (.leaf 95839622946029696)
 (.leaf 95889077587849936))
 (.node 1 (.leaf 95954789224759568)
 (.leaf 95974355985158544)))
 (.node 2 (.node 1 (.leaf 96011376410990752)
 (.leaf 96049635791720144))
 (.node 1 (.leaf 96054445475543664)
 (.leaf 96058674770531312)))))
 (.node 8 (.node 4 (.node 2 (.node 1 (.leaf 96064238832527392)
 (.leaf 96097399102398080))
 (.node 1 (.leaf 96222446248375136)
 (.leaf 96245578480477440)))
 (.node 2 (.node 1 (.leaf 96268165455765952)
 (.leaf 96320855118505680))
 (.node 1 (.leaf 96425577801272000)
 (.leaf 96433380753328768))))
 (.node 4 (.node 2 (.node 1 (.leaf 96496728968135456)
 (.leaf 96499885282537568))
 (.node 1 (.leaf 96592117816797312)
 (.leaf 96600136218864160)))
 (.node 2 (.node 1 (.leaf 96634744233085216)
 (.leaf 96682166680107600))
 (.node 1 (.leaf 96683451682824848)
 (.leaf 96704171974608336))))))
 (.node 16 (.node 8 (.node 4 (.node 2 (.node 1 (.leaf 96717185596441216)
 (.leaf 96721534262872592))
 (.node 1 (.leaf 96745653610930448)
 (.leaf 96774600202907600)))
 (.node 2 (.node 1 (.leaf 96813040659058256)
 (.leaf 96827572015512752))
 (.node 1 (.leaf 96858825585262176)
 (.leaf 96865879903346224))))
 (.node 4 (.node 2 (.node 1 (.leaf 96878517859707456)
 (.leaf 96922879172306384))
 (.node 1 (.leaf 97008939331581808)
 (.leaf 97070079077724048)))
 (.node 2 (.node 1 (.leaf 97073131006873808)
 (.leaf 97108012936064128))
 (.node 1 (.leaf 97117033888892640)
 (.leaf 97121238575181776)))))
 (.node 8 (.node 4 (.node 2 (.node 1 (.leaf 97175100363588480)
 (.leaf 97182708820712032))
 (.node 1 (.leaf 97184156908220448)
 (.leaf 97191064277216448)))
 (.node 2 (.node 1 (.leaf 97252663276094896)
 (.leaf 97320474238698688))
 (.node 1 (.leaf 97370851853780016)
 (.leaf 97409706536015888))))
 (.node 4 (.node 2 (.node 1 (.leaf 97416473215540240)
 (.leaf 97457799911354880))
 (.node 1 (.leaf 97468342946802240)
 (.leaf 97480691143062016)))
 (.node 2 (.node 1 (.leaf 97589841823018016)
 (.leaf 97611707195593632))
 (.node 1 (.leaf 97655148016723168)
 (.leaf 97701051535199536)))))))
 (.node 32 (.node 16 (.node 8 (.node 4 (.node 2 (.node 1 (.leaf 97730665953017952)
 (.leaf 97749996997805952))
 (.node 1 (.leaf 97776388011426096)
 (.leaf 97788142112979280)))
 (.node 2 (.node 1 (.leaf 97869082740802704)
 (.leaf 97893009216419072))
 (.node 1 (.leaf 97989174418895312)
 (.leaf 97996181138711760))))
 (.node 4 (.node 2 (.node 1 (.leaf 98062082699756144)
 (.leaf 98069852153490560))
 (.node 1 (.leaf 98088047528663952)
 (.leaf 98126731021891552)))
 (.node 2 (.node 1 (.leaf 98199943358433648)
 (.leaf 98234919285598096))
 (.node 1 (.leaf 98239071950769664)
 (.leaf 98298346386498560)))))
 (.node 8 (.node 4 (.node 2 (.node 1 (.leaf 98394028253210224)
 (.leaf 98413824600210176))
 (.node 1 (.leaf 98415455742975456)
 (.leaf 98448725919891344)))
 (.node 2 (.node 1 (.leaf 98469058983822032)
 (.leaf 98492477824976016))
 (.node 1 (.leaf 98500326170376864)
 (.leaf 98504711855125616))))
 (.node 4 (.node 2 (.node 1 (.leaf 98520131572758208)
 (.leaf 98548180734578592))
 (.node 1 (.leaf 98554153797900448)
 (.leaf 98566789541779248)))
 (.node 2 (.node 1 (.leaf 98594060608718016)
 (.leaf 98625382471703584))
 (.node 1 (.leaf 98649797771382720)
 (.leaf 98650072194326768))))))
 (.node 16 (.node 8 (.node 4 (.node 2 (.node 1 (.leaf 98654233764629344)
 (.leaf 98671560805420192))
 (.node 1 (.leaf 98723310572390208)
 (.leaf 98734435256781840)))
 (.node 2 (.node 1 (.leaf 98738088470662464)
 (.leaf 98759510830108240))
 (.node 1 (.leaf 98801761316672064)
 (.leaf 98842341491628224))))
 (.node 4 (.node 2 (.node 1 (.leaf 98911824265352112)
 (.leaf 98957307730430000))
 (.node 1 (.leaf 98964513975618544)
 (.leaf 99010552186020192)))
 (.node 2 (.node 1 (.leaf 99154821555827600)
 (.leaf 99173349050672160))
 (.node 1 (.leaf 99196110068805888)
 (.leaf 99199128300737664)))))
 (.node 8 (.node 4 (.node 2 (.node 1 (.leaf 99204140260912304)
 (.leaf 99241501615631568))
 (.node 1 (.leaf 99254295654856976)
 (.leaf 99289945971137376)))
 (.node 2 (.node 1 (.leaf 99295216665600448)
 (.leaf 99301593992651600))
 (.node 1 (.leaf 99318843861580560)
 (.leaf 99328833891081056))))
 (.node 4 (.node 2 (.node 1 (.leaf 99344184058561776)
 (.leaf 99353107124946000))
 (.node 1 (.leaf 99374076068051248)
 (.leaf 99387103428070848)))
 (.node 2 (.node 1 (.leaf 99488095670015312)
 (.leaf 99567611742823360))
 (.node 1 (.leaf 99586396930960304)
 (.leaf 99632571004686784))))))))
 (.node 64 (.node 32 (.node 16 (.node 8 (.node 4 (.node 2 (.node 1 (.leaf 99644688181398576)
 (.leaf 99721595527959248))
 (.node 1 (.leaf 99730960003201088)
 (.leaf 99791791208706368)))
 (.node 2 (.node 1 (.leaf 99823104855738448)
 (.leaf 99833348785818080))
 (.node 1 (.leaf 99895836750393744)
 (.leaf 100037332425654768))))
 (.node 4 (.node 2 (.node 1 (.leaf 100082194737849504)
 (.leaf 100083069474003824))
 (.node 1 (.leaf 100085331581143472)
 (.leaf 100099691806069680)))
 (.node 2 (.node 1 (.leaf 100106585356338640)
 (.leaf 100117662344326416))
 (.node 1 (.leaf 100150545393530704)
 (.leaf 100163070493175296)))))
 (.node 8 (.node 4 (.node 2 (.node 1 (.leaf 100175845438903232)
 (.leaf 100259293913368304))
 (.node 1 (.leaf 100267263028301280)
 (.leaf 100267343279358544)))
 (.node 2 (.node 1 (.leaf 100269574989031648)
 (.leaf 100301207793775696))
 (.node 1 (.leaf 100316870123710512)
 (.leaf 100364736261424736))))
 (.node 4 (.node 2 (.node 1 (.leaf 100386515008260400)
 (.leaf 100434468019826496))
 (.node 1 (.leaf 100464241874721104)
 (.leaf 100465621103125136)))
 (.node 2 (.node 1 (.leaf 100486764490151728)
 (.leaf 100494392347982192))
 (.node 1 (.leaf 100552159773508704)
 (.leaf 100561302280276928))))))
 (.node 16 (.node 8 (.node 4 (.node 2 (.node 1 (.leaf 100565715024628864)
 (.leaf 100600748007473504))
 (.node 1 (.leaf 100608608868142112)
 (.leaf 100610599012081200)))
 (.node 2 (.node 1 (.leaf 100641865984198320)
 (.leaf 100721333899411312))
 (.node 1 (.leaf 100737360261055232)
 (.leaf 100756412717173104))))
 (.node 4 (.node 2 (.node 1 (.leaf 100784799789792656)
 (.leaf 100931952006026352))
 (.node 1 (.leaf 100973574899310736)
 (.leaf 100993326047674192)))
 (.node 2 (.node 1 (.leaf 101116195318267296)
 (.leaf 101187677911716944))
 (.node 1 (.leaf 101189054147867008)
 (.leaf 101212796783204896)))))
 (.node 8 (.node 4 (.node 2 (.node 1 (.leaf 101267509228477968)
 (.leaf 101275023735923344))
 (.node 1 (.leaf 101282573701163504)
 (.leaf 101299134592416112)))
 (.node 2 (.node 1 (.leaf 101341073901057936)
 (.leaf 101401361860540880))
 (.node 1 (.leaf 101415561555899600)
 (.leaf 101438844840600848))))
 (.node 4 (.node 2 (.node 1 (.leaf 101463627336276880)
 (.leaf 101523875105856080))
 (.node 1 (.leaf 101644109434100224)
 (.leaf 101676430509742912)))
 (.node 2 (.node 1 (.leaf 101747535208549232)
 (.leaf 101768962564916720))
 (.node 1 (.leaf 101789085980899632)
 (.leaf 101803917707163792)))))))
 (.node 32 (.node 16 (.node 8 (.node 4 (.node 2 (.node 1 (.leaf 101834445541349696)
 (.leaf 101838024056442704))
 (.node 1 (.leaf 101843203934005584)
 (.leaf 101926650960924672)))
 (.node 2 (.node 1 (.leaf 101932532604268112)
 (.leaf 101946214635030064))
 (.node 1 (.leaf 101961198282031936)
 (.leaf 102017175135686560))))
 (.node 4 (.node 2 (.node 1 (.leaf 102026946779850752)
 (.leaf 102046700011702816))
 (.node 1 (.leaf 102059787297831072)
 (.leaf 102146627893959616)))
 (.node 2 (.node 1 (.leaf 102175892544176624)
 (.leaf 102188049799303888))
 (.node 1 (.leaf 102202195413073584)
 (.leaf 102292160952926336)))))
 (.node 8 (.node 4 (.node 2 (.node 1 (.leaf 102424527502513440)
 (.leaf 102439406122832144))
 (.node 1 (.leaf 102447724385447280)
 (.leaf 102457768251555264)))
 (.node 2 (.node 1 (.leaf 102460053924313264)
 (.leaf 102470994047139648))
 (.node 1 (.leaf 102472478196103600)
 (.leaf 102528234904538256))))
 (.node 4 (.node 2 (.node 1 (.leaf 102529290343890496)
 (.leaf 102539552030856064))
 (.node 1 (.leaf 102576322252626064)
 (.leaf 102579345652618304)))
 (.node 2 (.node 1 (.leaf 102606929813070704)
 (.leaf 102661582943729824))
 (.node 1 (.leaf 102675347482386432)
 (.leaf 102708710251789664))))))
 (.node 16 (.node 8 (.node 4 (.node 2 (.node 1 (.leaf 102731068626418896)
 (.leaf 102736349701737920))
 (.node 1 (.leaf 102764620303748400)
 (.leaf 102769502072846976)))
 (.node 2 (.node 1 (.leaf 102776199727326672)
 (.leaf 102783978353443616))
 (.node 1 (.leaf 102892878961255776)
 (.leaf 102896888323439152))))
 (.node 4 (.node 2 (.node 1 (.leaf 102903079146388816)
 (.leaf 102964541253063456))
 (.node 1 (.leaf 103025184077471696)
 (.leaf 103123929143044832)))
 (.node 2 (.node 1 (.leaf 103138055469390656)
 (.leaf 103190298908306688))
 (.node 1 (.leaf 103209024975339648)
 (.leaf 103284392415645248)))))
 (.node 8 (.node 4 (.node 2 (.node 1 (.leaf 103300501644803728)
 (.leaf 103333100182344960))
 (.node 1 (.leaf 103335666214428256)
 (.leaf 103351428302150512)))
 (.node 2 (.node 1 (.leaf 103356889625164640)
 (.leaf 103389511276427664))
 (.node 1 (.leaf 103416347944927120)
 (.leaf 103419421165606624))))
 (.node 4 (.node 2 (.node 1 (.leaf 103431495466281152)
 (.leaf 103459807090179392))
 (.node 1 (.leaf 103512151378992832)
 (.leaf 103524192808033120)))
 (.node 2 (.node 1 (.leaf 103528775271911312)
 (.leaf 103576198961799504))
 (.node 1 (.leaf 103699783661730128)
 (.leaf 103748255138486128)))))))))))
 (.node 512 (.node 256 (.node 128 (.node 64 (.node 32 (.node 16 (.node 8 (.node 4 (.node 2 (.node 1 (.leaf 103767590364693072)
 (.leaf 103862906249946832))
 (.node 1 (.leaf 103949849653890480)
 (.leaf 103959200516593184)))
 (.node 2 (.node 1 (.leaf 104118873503142992)
 (.leaf 104160827638890720))
 (.node 1 (.leaf 104172607552313584)
 (.leaf 104182104059746512))))
 (.node 4 (.node 2 (.node 1 (.leaf 104226873104025152)
 (.leaf 104261926110882960))
 (.node 1 (.leaf 104270731604983904)
 (.leaf 104279706511923776)))
 (.node 2 (.node 1 (.leaf 104280329796171424)
 (.leaf 104290591070660304))
 (.node 1 (.leaf 104341620786989728)
 (.leaf 104356926669659616)))))
 (.node 8 (.node 4 (.node 2 (.node 1 (.leaf 104399866463133072)
 (.leaf 104429666102050048))
 (.node 1 (.leaf 104431003692664080)
 (.leaf 104525839541179968)))
 (.node 2 (.node 1 (.leaf 104553033919655952)
 (.leaf 104581180282938096))
 (.node 1 (.leaf 104610743455393600)
 (.leaf 104643135306847584))))
 (.node 4 (.node 2 (.node 1 (.leaf 104724301240002048)
 (.leaf 104738896238095872))
 (.node 1 (.leaf 104771678761763904)
 (.leaf 104808351388264144)))
 (.node 2 (.node 1 (.leaf 104859036062104112)
 (.leaf 104925460898446640))
 (.node 1 (.leaf 104935368128880880)
 (.leaf 104963003748002880))))))
 (.node 16 (.node 8 (.node 4 (.node 2 (.node 1 (.leaf 105023385721779440)
 (.leaf 105045210639111632))
 (.node 1 (.leaf 105060030433516400)
 (.leaf 105075518040403008)))
 (.node 2 (.node 1 (.leaf 105095170754987728)
 (.leaf 105173807802166096))
 (.node 1 (.leaf 105244533178623344)
 (.leaf 105298360773841328))))
 (.node 4 (.node 2 (.node 1 (.leaf 105318804705703680)
 (.leaf 105392271141910720))
 (.node 1 (.leaf 105413225261508496)
 (.leaf 105461944313271840)))
 (.node 2 (.node 1 (.leaf 105462936620460592)
 (.leaf 105478342516266240))
 (.node 1 (.leaf 105554639854645984)
 (.leaf 105648522127206864)))))
 (.node 8 (.node 4 (.node 2 (.node 1 (.leaf 105692169794153648)
 (.leaf 105697849518997712))
 (.node 1 (.leaf 105771057458397616)
 (.leaf 105912402927769920)))
 (.node 2 (.node 1 (.leaf 105961278164336464)
 (.leaf 106010397256167520))
 (.node 1 (.leaf 106103746989933888)
 (.leaf 106120539338626352))))
 (.node 4 (.node 2 (.node 1 (.leaf 106126856147198352)
 (.leaf 106241174699899456))
 (.node 1 (.leaf 106256932939905408)
 (.leaf 106264260431482608)))
 (.node 2 (.node 1 (.leaf 106368948136579904)
 (.leaf 106377918667588448))
 (.node 1 (.leaf 106395660263921408)
 (.leaf 106430069791174784)))))))
 (.node 32 (.node 16 (.node 8 (.node 4 (.node 2 (.node 1 (.leaf 106440665043496224)
 (.leaf 106475302055409872))
 (.node 1 (.leaf 106548493302502512)
 (.leaf 106571416090279632)))
 (.node 2 (.node 1 (.leaf 106590172508659840)
 (.leaf 106725586654670992))
 (.node 1 (.leaf 106751622282058096)
 (.leaf 106783540035753408))))
 (.node 4 (.node 2 (.node 1 (.leaf 106871388227977936)
 (.leaf 106919550577303056))
 (.node 1 (.leaf 106942002610049872)
 (.leaf 106948106137420336)))
 (.node 2 (.node 1 (.leaf 106957350386251328)
 (.leaf 106960499455090912))
 (.node 1 (.leaf 106998852250606080)
 (.leaf 107045894458004384)))))
 (.node 8 (.node 4 (.node 2 (.node 1 (.leaf 107060936406186816)
 (.leaf 107097565351841120))
 (.node 1 (.leaf 107106257810045232)
 (.leaf 107108578072806144)))
 (.node 2 (.node 1 (.leaf 107126383565675792)
 (.leaf 107243792972018096))
 (.node 1 (.leaf 107272485420166912)
 (.leaf 107297593534653728))))
 (.node 4 (.node 2 (.node 1 (.leaf 107377390914002368)
 (.leaf 107461703214566608))
 (.node 1 (.leaf 107484159585870896)
 (.leaf 107515609188955312)))
 (.node 2 (.node 1 (.leaf 107530811062580016)
 (.leaf 107557339551531600))
 (.node 1 (.leaf 107629625802528976)
 (.leaf 107665650170114240))))))
 (.node 16 (.node 8 (.node 4 (.node 2 (.node 1 (.leaf 107710504311132416)
 (.leaf 107730999762569712))
 (.node 1 (.leaf 107760586424139504)
 (.leaf 107798228541521360)))
 (.node 2 (.node 1 (.leaf 107799559906248352)
 (.leaf 107839297917120880))
 (.node 1 (.leaf 107875405146495136)
 (.leaf 107885446532293648))))
 (.node 4 (.node 2 (.node 1 (.leaf 107948036263376432)
 (.leaf 107956140541599728))
 (.node 1 (.leaf 107957610472534848)
 (.leaf 107959139268643696)))
 (.node 2 (.node 1 (.leaf 107981544370750592)
 (.leaf 108044531875598064))
 (.node 1 (.leaf 108050581171376560)
 (.leaf 108052561006003504)))))
 (.node 8 (.node 4 (.node 2 (.node 1 (.leaf 108106592836021440)
 (.leaf 108118086651021712))
 (.node 1 (.leaf 108147495242699456)
 (.leaf 108154338821006192)))
 (.node 2 (.node 1 (.leaf 108155703967353728)
 (.leaf 108260384653735648))
 (.node 1 (.leaf 108283334433334672)
 (.leaf 108364318315943904))))
 (.node 4 (.node 2 (.node 1 (.leaf 108382277263406672)
 (.leaf 108383352399595712))
 (.node 1 (.leaf 108400574294259632)
 (.leaf 108413368453240112)))
 (.node 2 (.node 1 (.leaf 108467994345845008)
 (.leaf 108472300083703712))
 (.node 1 (.leaf 108517729640699248)
 (.leaf 108537606760548512))))))))
 (.node 64 (.node 32 (.node 16 (.node 8 (.node 4 (.node 2 (.node 1 (.leaf 108549948336389424)
 (.leaf 108559410692926368))
 (.node 1 (.leaf 108581601804183120)
 (.leaf 108609717849654608)))
 (.node 2 (.node 1 (.leaf 108649361840046832)
 (.leaf 108750064431141264))
 (.node 1 (.leaf 108774291341541680)
 (.leaf 108829445522904928))))
 (.node 4 (.node 2 (.node 1 (.leaf 108835718018159584)
 (.leaf 108851746477181344))
 (.node 1 (.leaf 108863661938354880)
 (.leaf 108955265140695712)))
 (.node 2 (.node 1 (.leaf 109063949559263536)
 (.leaf 109068821106037888))
 (.node 1 (.leaf 109083760324472704)
 (.leaf 109115947156800464)))))
 (.node 8 (.node 4 (.node 2 (.node 1 (.leaf 109118274224527104)
 (.leaf 109146075433407248))
 (.node 1 (.leaf 109213946754087328)
 (.leaf 109221130787224240)))
 (.node 2 (.node 1 (.leaf 109251359994218384)
 (.leaf 109372803809079184))
 (.node 1 (.leaf 109384934512285088)
 (.leaf 109410787150491904))))
 (.node 4 (.node 2 (.node 1 (.leaf 109433143362499856)
 (.leaf 109489361363068432))
 (.node 1 (.leaf 109668237379496400)
 (.leaf 109668467219511488)))
 (.node 2 (.node 1 (.leaf 109805645522340592)
 (.leaf 109816163375406320))
 (.node 1 (.leaf 109819791911547200)
 (.leaf 109849083586350000))))))
 (.node 16 (.node 8 (.node 4 (.node 2 (.node 1 (.leaf 109873281971043072)
 (.leaf 109911277034008480))
 (.node 1 (.leaf 109934179177027984)
 (.leaf 109943844765244256)))
 (.node 2 (.node 1 (.leaf 109971877455713392)
 (.leaf 109977356235597456))
 (.node 1 (.leaf 110042848862080080)
 (.leaf 110054974847479776))))
 (.node 4 (.node 2 (.node 1 (.leaf 110122193488031376)
 (.leaf 110256117851327888))
 (.node 1 (.leaf 110283218150651168)
 (.leaf 110319543092059552)))
 (.node 2 (.node 1 (.leaf 110340302385456160)
 (.leaf 110346115322703200))
 (.node 1 (.leaf 110370248294108928)
 (.leaf 110379050986671904)))))
 (.node 8 (.node 4 (.node 2 (.node 1 (.leaf 110705346424815360)
 (.leaf 110759122686299392))
 (.node 1 (.leaf 110873304412694288)
 (.leaf 110887365384682448)))
 (.node 2 (.node 1 (.leaf 110892703068577552)
 (.leaf 110895187754032784))
 (.node 1 (.leaf 110895671173364688)
 (.leaf 110989193284744912))))
 (.node 4 (.node 2 (.node 1 (.leaf 111138995677091728)
 (.leaf 111161487460874512))
 (.node 1 (.leaf 111173750602647712)
 (.leaf 111235508196074512)))
 (.node 2 (.node 1 (.leaf 111263428662630960)
 (.leaf 111263749523119920))
 (.node 1 (.leaf 111285887505747488)
 (.leaf 111303625015613936)))))))
 (.node 32 (.node 16 (.node 8 (.node 4 (.node 2 (.node 1 (.leaf 111307813255531712)
 (.leaf 111360594056260800))
 (.node 1 (.leaf 111364507400984736)
 (.leaf 111422145179922096)))
 (.node 2 (.node 1 (.leaf 111452092062885120)
 (.leaf 111472974591897312))
 (.node 1 (.leaf 111475441264136352)
 (.leaf 111494625500916832))))
 (.node 4 (.node 2 (.node 1 (.leaf 111498965279671632)
 (.leaf 111526308607134416))
 (.node 1 (.leaf 111581186103494448)
 (.leaf 111590146155494176)))
 (.node 2 (.node 1 (.leaf 111624799228410112)
 (.leaf 111655523320259504))
 (.node 1 (.leaf 111656198208678432)
 (.leaf 111687013198891264)))))
 (.node 8 (.node 4 (.node 2 (.node 1 (.leaf 111725096104341376)
 (.leaf 111811453592750736))
 (.node 1 (.leaf 111822913035668336)
 (.leaf 111823132052322672)))
 (.node 2 (.node 1 (.leaf 111832562502091904)
 (.leaf 111857867869465264))
 (.node 1 (.leaf 111858449754885616)
 (.leaf 111900583823727936))))
 (.node 4 (.node 2 (.node 1 (.leaf 111932121262628336)
 (.leaf 111976136859305616))
 (.node 1 (.leaf 111983566364217312)
 (.leaf 111986058842970016)))
 (.node 2 (.node 1 (.leaf 112039487951688512)
 (.leaf 112067445092863472))
 (.node 1 (.leaf 112128249234218336)
 (.leaf 112165793743712640))))))
 (.node 16 (.node 8 (.node 4 (.node 2 (.node 1 (.leaf 112306349348802784)
 (.leaf 112355494941042672))
 (.node 1 (.leaf 112373739967853392)
 (.leaf 112376719836881392)))
 (.node 2 (.node 1 (.leaf 112428498276761808)
 (.leaf 112472563877838912))
 (.node 1 (.leaf 112486512347543216)
 (.leaf 112583167530901520))))
 (.node 4 (.node 2 (.node 1 (.leaf 112609119528861568)
 (.leaf 112660824133516736))
 (.node 1 (.leaf 112707579486006048)
 (.leaf 112775081889677200)))
 (.node 2 (.node 1 (.leaf 112821462654836736)
 (.leaf 112838580823418304))
 (.node 1 (.leaf 112886978341248992)
 (.leaf 112948755870158064)))))
 (.node 8 (.node 4 (.node 2 (.node 1 (.leaf 113002978538597904)
 (.leaf 113008479211393104))
 (.node 1 (.leaf 113071645905577904)
 (.leaf 113081348221296672)))
 (.node 2 (.node 1 (.leaf 113109006616089360)
 (.leaf 113212911112405760))
 (.node 1 (.leaf 113221800797549680)
 (.leaf 113365348296641872))))
 (.node 4 (.node 2 (.node 1 (.leaf 113501634073743936)
 (.leaf 113514089543133456))
 (.node 1 (.leaf 113520152028137744)
 (.leaf 113523883422495552)))
 (.node 2 (.node 1 (.leaf 113529094040013072)
 (.leaf 113552795200711472))
 (.node 1 (.leaf 113615018340687200)
 (.leaf 113631271454387424)))))))))
 (.node 128 (.node 64 (.node 32 (.node 16 (.node 8 (.node 4 (.node 2 (.node 1 (.leaf 113665407430206032)
 (.leaf 113672056490389760))
 (.node 1 (.leaf 113748732577728640)
 (.leaf 113785415836912912)))
 (.node 2 (.node 1 (.leaf 113809144414242864)
 (.leaf 113902787176691120))
 (.node 1 (.leaf 113916293646627488)
 (.leaf 113937391406324320))))
 (.node 4 (.node 2 (.node 1 (.leaf 113939380771743808)
 (.leaf 114040447258990016))
 (.node 1 (.leaf 114121204681506480)
 (.leaf 114206117944487520)))
 (.node 2 (.node 1 (.leaf 114343797988546016)
 (.leaf 114461173017358128))
 (.node 1 (.leaf 114549397091177392)
 (.leaf 114692722152396208)))))
 (.node 8 (.node 4 (.node 2 (.node 1 (.leaf 114696366915958848)
 (.leaf 114714071983990240))
 (.node 1 (.leaf 114809247011465680)
 (.leaf 114833351876117520)))
 (.node 2 (.node 1 (.leaf 114849281192537616)
 (.leaf 114868233839531168))
 (.node 1 (.leaf 114870497041815952)
 (.leaf 114879257119445632))))
 (.node 4 (.node 2 (.node 1 (.leaf 114922280016981328)
 (.leaf 114945069316767760))
 (.node 1 (.leaf 114961787862384128)
 (.leaf 114982925657603472)))
 (.node 2 (.node 1 (.leaf 114985495577318880)
 (.leaf 114995301421792240))
 (.node 1 (.leaf 115012541737568544)
 (.leaf 115049197728411456))))))
 (.node 16 (.node 8 (.node 4 (.node 2 (.node 1 (.leaf 115084936952406784)
 (.leaf 115102720486736048))
 (.node 1 (.leaf 115172146991951232)
 (.leaf 115219581716311648)))
 (.node 2 (.node 1 (.leaf 115241221479262656)
 (.leaf 115242269911732208))
 (.node 1 (.leaf 115242603772554480)
 (.leaf 115278453434849312))))
 (.node 4 (.node 2 (.node 1 (.leaf 115279729871422272)
 (.leaf 115307448085945904))
 (.node 1 (.leaf 115327673185915984)
 (.leaf 115344011475381664)))
 (.node 2 (.node 1 (.leaf 115375090751137200)
 (.leaf 115447784029889024))
 (.node 1 (.leaf 115478265230411040)
 (.leaf 115600656471190752)))))
 (.node 8 (.node 4 (.node 2 (.node 1 (.leaf 115607598281123152)
 (.leaf 115622171474384320))
 (.node 1 (.leaf 115631928411604000)
 (.leaf 115653779254472976)))
 (.node 2 (.node 1 (.leaf 115660012346894704)
 (.leaf 115714050264303472))
 (.node 1 (.leaf 115755012594147136)
 (.leaf 115804661610971568))))
 (.node 4 (.node 2 (.node 1 (.leaf 115829015873540992)
 (.leaf 115843531196993472))
 (.node 1 (.leaf 115881769024502176)
 (.leaf 116037076390748480)))
 (.node 2 (.node 1 (.leaf 116049849953471040)
 (.leaf 116070707532247120))
 (.node 1 (.leaf 116088612122256160)
 (.leaf 116103387983495744)))))))
 (.node 32 (.node 16 (.node 8 (.node 4 (.node 2 (.node 1 (.leaf 116123645590734512)
 (.leaf 116157504178915504))
 (.node 1 (.leaf 116158280294861728)
 (.leaf 116254483757963952)))
 (.node 2 (.node 1 (.leaf 116275670317161120)
 (.leaf 116361748912726800))
 (.node 1 (.leaf 116369421003662176)
 (.leaf 116434012738493680))))
 (.node 4 (.node 2 (.node 1 (.leaf 116482663224772816)
 (.leaf 116597926516723200))
 (.node 1 (.leaf 116644180364336080)
 (.leaf 116653377581750864)))
 (.node 2 (.node 1 (.leaf 116669995796137728)
 (.leaf 116680470377212656))
 (.node 1 (.leaf 116698836815513168)
 (.leaf 116753845871100528)))))
 (.node 8 (.node 4 (.node 2 (.node 1 (.leaf 117000351506301504)
 (.leaf 117027568426693904))
 (.node 1 (.leaf 117063181121522992)
 (.leaf 117067400726015504)))
 (.node 2 (.node 1 (.leaf 117124980291236432)
 (.leaf 117141924745574064))
 (.node 1 (.leaf 117148034139819984)
 (.leaf 117198378158594000))))
 (.node 4 (.node 2 (.node 1 (.leaf 117219678375950432)
 (.leaf 117309935645996672))
 (.node 1 (.leaf 117356994678726160)
 (.leaf 117359957761210304)))
 (.node 2 (.node 1 (.leaf 117362613305833008)
 (.leaf 117362713455042896))
 (.node 1 (.leaf 117480017833416128)
 (.leaf 117499452136262000))))))
 (.node 16 (.node 8 (.node 4 (.node 2 (.node 1 (.leaf 117522799928292896)
 (.leaf 117575185654854944))
 (.node 1 (.leaf 117654007023151248)
 (.leaf 117719889467071440)))
 (.node 2 (.node 1 (.leaf 117728136716998144)
 (.leaf 117745230464923184))
 (.node 1 (.leaf 117752522635422736)
 (.leaf 117755926869352176))))
 (.node 4 (.node 2 (.node 1 (.leaf 117796583500666960)
 (.leaf 117866585473972256))
 (.node 1 (.leaf 118110834524881328)
 (.leaf 118130775667300704)))
 (.node 2 (.node 1 (.leaf 118299784182528592)
 (.leaf 118339481239359584))
 (.node 1 (.leaf 118342510508876576)
 (.leaf 118348766352293856)))))
 (.node 8 (.node 4 (.node 2 (.node 1 (.leaf 118354580160779520)
 (.leaf 118402011924685280))
 (.node 1 (.leaf 118461492870340608)
 (.leaf 118474794773777232)))
 (.node 2 (.node 1 (.leaf 118475458625172256)
 (.leaf 118512623930097168))
 (.node 1 (.leaf 118527270915363280)
 (.leaf 118554142942229440))))
 (.node 4 (.node 2 (.node 1 (.leaf 118557195688349856)
 (.leaf 118587645575509568))
 (.node 1 (.leaf 118665522342502672)
 (.leaf 118683682934346144)))
 (.node 2 (.node 1 (.leaf 118683682934346192)
 (.leaf 118692350369119136))
 (.node 1 (.leaf 118823494921300272)
 (.leaf 118836196360738336))))))))
 (.node 64 (.node 32 (.node 16 (.node 8 (.node 4 (.node 2 (.node 1 (.leaf 118856043760134032)
 (.leaf 118871763540608064))
 (.node 1 (.leaf 118890309774293104)
 (.leaf 118918375190159744)))
 (.node 2 (.node 1 (.leaf 118954981175141152)
 (.leaf 118978714145570176))
 (.node 1 (.leaf 119035574828836448)
 (.leaf 119063625211696576))))
 (.node 4 (.node 2 (.node 1 (.leaf 119117032737303584)
 (.leaf 119129849562327456))
 (.node 1 (.leaf 119144523514641776)
 (.leaf 119214821410979360)))
 (.node 2 (.node 1 (.leaf 119300667551197840)
 (.leaf 119319140027777120))
 (.node 1 (.leaf 119375516542084288)
 (.leaf 119378015678751632)))))
 (.node 8 (.node 4 (.node 2 (.node 1 (.leaf 119392902298490000)
 (.leaf 119407891482466400))
 (.node 1 (.leaf 119420271054165760)
 (.leaf 119464807838731712)))
 (.node 2 (.node 1 (.leaf 119519489363423312)
 (.leaf 119539142577848512))
 (.node 1 (.leaf 119579091140119200)
 (.leaf 119599835475549168))))
 (.node 4 (.node 2 (.node 1 (.leaf 119636458839188800)
 (.leaf 119662870693587264))
 (.node 1 (.leaf 119732533739479200)
 (.leaf 119748470121381584)))
 (.node 2 (.node 1 (.leaf 119788126274649280)
 (.leaf 119831393782971568))
 (.node 1 (.leaf 119854588450915200)
 (.leaf 119890948256998176))))))
 (.node 16 (.node 8 (.node 4 (.node 2 (.node 1 (.leaf 119920671521078208)
 (.leaf 119960150956888608))
 (.node 1 (.leaf 119961170526527904)
 (.leaf 120009343167123872)))
 (.node 2 (.node 1 (.leaf 120020123052683648)
 (.leaf 120063707729341600))
 (.node 1 (.leaf 120081814903519216)
 (.leaf 120184833528742096))))
 (.node 4 (.node 2 (.node 1 (.leaf 120216875346867840)
 (.leaf 120280567645935952))
 (.node 1 (.leaf 120289408554397440)
 (.leaf 120377901237857008)))
 (.node 2 (.node 1 (.leaf 120392045225035136)
 (.leaf 120401065465995888))
 (.node 1 (.leaf 120494854364322336)
 (.leaf 120517531493890640)))))
 (.node 8 (.node 4 (.node 2 (.node 1 (.leaf 120519407355565056)
 (.leaf 120530492969837488))
 (.node 1 (.leaf 120550160544957712)
 (.leaf 120573265340119808)))
 (.node 2 (.node 1 (.leaf 120637280936946240)
 (.leaf 120700058932959696))
 (.node 1 (.leaf 120709748271375280)
 (.leaf 120739486005192512))))
 (.node 4 (.node 2 (.node 1 (.leaf 120836480417396304)
 (.leaf 120918573923118656))
 (.node 1 (.leaf 120930804945936544)
 (.leaf 120934998584934032)))
 (.node 2 (.node 1 (.leaf 121013048294439312)
 (.leaf 121050759044900320))
 (.node 1 (.leaf 121060368646397296)
 (.leaf 121118127983917056)))))))
 (.node 32 (.node 16 (.node 8 (.node 4 (.node 2 (.node 1 (.leaf 121122783899925152)
 (.leaf 121206095002930896))
 (.node 1 (.leaf 121220611210076320)
 (.leaf 121233109507560352)))
 (.node 2 (.node 1 (.leaf 121276539597154768)
 (.leaf 121279748883147488))
 (.node 1 (.leaf 121321041555735760)
 (.leaf 121339677311396704))))
 (.node 4 (.node 2 (.node 1 (.leaf 121414105707764192)
 (.leaf 121414451217513728))
 (.node 1 (.leaf 121440917698040288)
 (.leaf 121472093298824928)))
 (.node 2 (.node 1 (.leaf 121476381421476704)
 (.leaf 121491628524989504))
 (.node 1 (.leaf 121553083453175312)
 (.leaf 121584214866950752)))))
 (.node 8 (.node 4 (.node 2 (.node 1 (.leaf 121589284351268224)
 (.leaf 121619237664199680))
 (.node 1 (.leaf 121632469430113888)
 (.leaf 121652432558725104)))
 (.node 2 (.node 1 (.leaf 121667465677102256)
 (.leaf 121691149744577488))
 (.node 1 (.leaf 121721091895203744)
 (.leaf 121732621237418208))))
 (.node 4 (.node 2 (.node 1 (.leaf 121777654460780688)
 (.leaf 121785059303727056))
 (.node 1 (.leaf 121819146936621520)
 (.leaf 121822358838944832)))
 (.node 2 (.node 1 (.leaf 121839683677802384)
 (.leaf 121856828820174800))
 (.node 1 (.leaf 121897687892574624)
 (.leaf 121935605399172240))))))
 (.node 16 (.node 8 (.node 4 (.node 2 (.node 1 (.leaf 122096437546958560)
 (.leaf 122098977578195312))
 (.node 1 (.leaf 122140616366126000)
 (.leaf 122212791560738336)))
 (.node 2 (.node 1 (.leaf 122220646601825344)
 (.leaf 122273848202430560))
 (.node 1 (.leaf 122333531578647680)
 (.leaf 122352537290461744))))
 (.node 4 (.node 2 (.node 1 (.leaf 122368102499669904)
 (.leaf 122454554675565632))
 (.node 1 (.leaf 122462145273774896)
 (.leaf 122517508984179232)))
 (.node 2 (.node 1 (.leaf 122520990365151152)
 (.leaf 122529122172952656))
 (.node 1 (.leaf 122572621679822480)
 (.leaf 122649964491972608)))))
 (.node 8 (.node 4 (.node 2 (.node 1 (.leaf 122714605936465632)
 (.leaf 122721833382473728))
 (.node 1 (.leaf 122859873701742240)
 (.leaf 122887792761531760)))
 (.node 2 (.node 1 (.leaf 122898008678553776)
 (.leaf 122942718165694432))
 (.node 1 (.leaf 122952191186661456)
 (.leaf 122959708481491248))))
 (.node 4 (.node 2 (.node 1 (.leaf 123039179949534288)
 (.leaf 123078670232452224))
 (.node 1 (.leaf 123112212852316032)
 (.leaf 123125048238993808)))
 (.node 2 (.node 1 (.leaf 123167999285425600)
 (.leaf 123192858737781152))
 (.node 1 (.leaf 123210880319624400)
 (.leaf 123231222990270512))))))))))
 (.node 256 (.node 128 (.node 64 (.node 32 (.node 16 (.node 8 (.node 4 (.node 2 (.node 1 (.leaf 123286725159466144)
 (.leaf 123310885538579712))
 (.node 1 (.leaf 123365583620463616)
 (.leaf 123404288738742416)))
 (.node 2 (.node 1 (.leaf 123434981159709760)
 (.leaf 123468207198712800))
 (.node 1 (.leaf 123476870005818080)
 (.leaf 123521210709663280))))
 (.node 4 (.node 2 (.node 1 (.leaf 123522435236364176)
 (.leaf 123550880755432000))
 (.node 1 (.leaf 123584725708896784)
 (.leaf 123693415649632336)))
 (.node 2 (.node 1 (.leaf 123714638004386464)
 (.leaf 123864341132918224))
 (.node 1 (.leaf 123869229649741008)
 (.leaf 123872180114106704)))))
 (.node 8 (.node 4 (.node 2 (.node 1 (.leaf 123876312183943744)
 (.leaf 123900569871946800))
 (.node 1 (.leaf 123905196085845632)
 (.leaf 123927751521291824)))
 (.node 2 (.node 1 (.leaf 123930179017346448)
 (.leaf 123931141645501392))
 (.node 1 (.leaf 123946686599200656)
 (.leaf 123989025283192720))))
 (.node 4 (.node 2 (.node 1 (.leaf 124003016503242896)
 (.leaf 124069010186067552))
 (.node 1 (.leaf 124105460028961568)
 (.leaf 124113027513751792)))
 (.node 2 (.node 1 (.leaf 124237171825559952)
 (.leaf 124264797195024736))
 (.node 1 (.leaf 124347951811545376)
 (.leaf 124378059150028864))))))
 (.node 16 (.node 8 (.node 4 (.node 2 (.node 1 (.leaf 124415059527346800)
 (.leaf 124431958667443056))
 (.node 1 (.leaf 124455948441787504)
 (.leaf 124482445697849888)))
 (.node 2 (.node 1 (.leaf 124514674528981968)
 (.leaf 124545423508189824))
 (.node 1 (.leaf 124550434577209120)
 (.leaf 124634913440789248))))
 (.node 4 (.node 2 (.node 1 (.leaf 124652113702652592)
 (.leaf 124763661966547360))
 (.node 1 (.leaf 124801315108364112)
 (.leaf 124872850318501632)))
 (.node 2 (.node 1 (.leaf 124888394056287344)
 (.leaf 124938660129715568))
 (.node 1 (.leaf 124950782724778416)
 (.leaf 124970983473934752)))))
 (.node 8 (.node 4 (.node 2 (.node 1 (.leaf 124971843036444704)
 (.leaf 124977956853996768))
 (.node 1 (.leaf 124978778900611136)
 (.leaf 125045233407795232)))
 (.node 2 (.node 1 (.leaf 125095269420822848)
 (.leaf 125111614245954896))
 (.node 1 (.leaf 125191008923126000)
 (.leaf 125208877056663616))))
 (.node 4 (.node 2 (.node 1 (.leaf 125212890302449712)
 (.leaf 125227939520540272))
 (.node 1 (.leaf 125246417180500656)
 (.leaf 125306836632805984)))
 (.node 2 (.node 1 (.leaf 125323380160386672)
 (.leaf 125338290969956096))
 (.node 1 (.leaf 125341181034790432)
 (.leaf 125368915468328320)))))))
 (.node 32 (.node 16 (.node 8 (.node 4 (.node 2 (.node 1 (.leaf 125427646790743856)
 (.leaf 125448340744070336))
 (.node 1 (.leaf 125480430894082016)
 (.leaf 125508803610196960)))
 (.node 2 (.node 1 (.leaf 125522242121626672)
 (.leaf 125529110970521840))
 (.node 1 (.leaf 125552585492077488)
 (.leaf 125574791047322032))))
 (.node 4 (.node 2 (.node 1 (.leaf 125637703165181472)
 (.leaf 125696908325862400))
 (.node 1 (.leaf 125701713226709792)
 (.leaf 125724000523056400)))
 (.node 2 (.node 1 (.leaf 125786785605577376)
 (.leaf 125827515424489248))
 (.node 1 (.leaf 125916811002333136)
 (.leaf 125929610876879888)))))
 (.node 8 (.node 4 (.node 2 (.node 1 (.leaf 126008801535678768)
 (.leaf 126056142109862880))
 (.node 1 (.leaf 126057357235857536)
 (.leaf 126069116904087024)))
 (.node 2 (.node 1 (.leaf 126107825105652816)
 (.leaf 126147009702217248))
 (.node 1 (.leaf 126156902182079792)
 (.leaf 126173096889545248))))
 (.node 4 (.node 2 (.node 1 (.leaf 126232953133808064)
 (.leaf 126288541056211824))
 (.node 1 (.leaf 126302727611104352)
 (.leaf 126324257702548976)))
 (.node 2 (.node 1 (.leaf 126394599923756128)
 (.leaf 126395656051677584))
 (.node 1 (.leaf 126480965357093232)
 (.leaf 126614211261685632))))))
 (.node 16 (.node 8 (.node 4 (.node 2 (.node 1 (.leaf 126614900939400080)
 (.leaf 126689122188780480))
 (.node 1 (.leaf 126794108231614208)
 (.leaf 126832069157186880)))
 (.node 2 (.node 1 (.leaf 126882134945423520)
 (.leaf 126887722380525616))
 (.node 1 (.leaf 126927828933579456)
 (.leaf 126989303104051696))))
 (.node 4 (.node 2 (.node 1 (.leaf 127159866860676704)
 (.leaf 127169528953991584))
 (.node 1 (.leaf 127190828950216224)
 (.leaf 127245302221754608)))
 (.node 2 (.node 1 (.leaf 127263059990730880)
 (.leaf 127305693099926656))
 (.node 1 (.leaf 127378439526127552)
 (.leaf 127379819374830784)))))
 (.node 8 (.node 4 (.node 2 (.node 1 (.leaf 127395397551741760)
 (.leaf 127510173185386368))
 (.node 1 (.leaf 127618854492439888)
 (.leaf 127724241997788176)))
 (.node 2 (.node 1 (.leaf 127812381307440576)
 (.leaf 127817335899960608))
 (.node 1 (.leaf 127832477506380400)
 (.leaf 127849871895438512))))
 (.node 4 (.node 2 (.node 1 (.leaf 127874875552170368)
 (.leaf 127887127611516208))
 (.node 1 (.leaf 127949295516708864)
 (.leaf 127977640926171728)))
 (.node 2 (.node 1 (.leaf 128008849550433936)
 (.leaf 128108096218436320))
 (.node 1 (.leaf 128111910223063008)
 (.leaf 128113956068544752))))))))
 (.node 64 (.node 32 (.node 16 (.node 8 (.node 4 (.node 2 (.node 1 (.leaf 128138178239777680)
 (.leaf 128159592523319088))
 (.node 1 (.leaf 128187572661766608)
 (.leaf 128249560466674800)))
 (.node 2 (.node 1 (.leaf 128260154100000448)
 (.leaf 128302660226844304))
 (.node 1 (.leaf 128310799806812848)
 (.leaf 128330982339186240))))
 (.node 4 (.node 2 (.node 1 (.leaf 128360338466457312)
 (.leaf 128372106252777616))
 (.node 1 (.leaf 128429542395362640)
 (.leaf 128516796200763744)))
 (.node 2 (.node 1 (.leaf 128563024770338464)
 (.leaf 128567195251848224))
 (.node 1 (.leaf 128591239456299376)
 (.leaf 128652939386662416)))))
 (.node 8 (.node 4 (.node 2 (.node 1 (.leaf 128756533837187792)
 (.leaf 128757880488690160))
 (.node 1 (.leaf 128770212668421824)
 (.leaf 128796300024004096)))
 (.node 2 (.node 1 (.leaf 128818207678330720)
 (.leaf 128842575407783968))
 (.node 1 (.leaf 128849138938951664)
 (.leaf 128929060555285152))))
 (.node 4 (.node 2 (.node 1 (.leaf 128994926346756752)
 (.leaf 129001143305612880))
 (.node 1 (.leaf 129002602929254096)
 (.leaf 129063729756126128)))
 (.node 2 (.node 1 (.leaf 129068654167595744)
 (.leaf 129069847064629232))
 (.node 1 (.leaf 129081735784920960)
 (.leaf 129141048577007648))))))
 (.node 16 (.node 8 (.node 4 (.node 2 (.node 1 (.leaf 129224754471684688)
 (.leaf 129229036635803904))
 (.node 1 (.leaf 129252089966902960)
 (.leaf 129303566393681536)))
 (.node 2 (.node 1 (.leaf 129307082230624464)
 (.leaf 129397659928878032))
 (.node 1 (.leaf 129504624527545392)
 (.leaf 129517960072472608))))
 (.node 4 (.node 2 (.node 1 (.leaf 129535912467735072)
 (.leaf 129541786446569568))
 (.node 1 (.leaf 129561101083699296)
 (.leaf 129567663848871232)))
 (.node 2 (.node 1 (.leaf 129657490495241808)
 (.leaf 129663931146774944))
 (.node 1 (.leaf 129710840590277152)
 (.leaf 129724216036496512)))))
 (.node 8 (.node 4 (.node 2 (.node 1 (.leaf 129749617407520496)
 (.leaf 129764845391027344))
 (.node 1 (.leaf 129767032297139024)
 (.leaf 129779726821410800)))
 (.node 2 (.node 1 (.leaf 129780283495283712)
 (.leaf 129853896393248784))
 (.node 1 (.leaf 129863421846683072)
 (.leaf 129937219861236624))))
 (.node 4 (.node 2 (.node 1 (.leaf 129946160824520208)
 (.leaf 129974501736266224))
 (.node 1 (.leaf 129981814306301840)
 (.leaf 130002610399612784)))
 (.node 2 (.node 1 (.leaf 130029508245609200)
 (.leaf 130066262540701792))
 (.node 1 (.leaf 130089363338209040)
 (.leaf 130098813248574240)))))))
 (.node 32 (.node 16 (.node 8 (.node 4 (.node 2 (.node 1 (.leaf 130136191050024128)
 (.leaf 130140523317636896))
 (.node 1 (.leaf 130146877921728480)
 (.leaf 130162172975441664)))
 (.node 2 (.node 1 (.leaf 130187036415464304)
 (.leaf 130198257820034704))
 (.node 1 (.leaf 130254599110260832)
 (.leaf 130264084632325456))))
 (.node 4 (.node 2 (.node 1 (.leaf 130266261526537248)
 (.leaf 130282951559916944))
 (.node 1 (.leaf 130357338796473264)
 (.leaf 130426425451410368)))
 (.node 2 (.node 1 (.leaf 130439251520632080)
 (.leaf 130467559862639808))
 (.node 1 (.leaf 130508459296025728)
 (.leaf 130529580979126816)))))
 (.node 8 (.node 4 (.node 2 (.node 1 (.leaf 130551806691578480)
 (.leaf 130557141335610192))
 (.node 1 (.leaf 130557405814437376)
 (.leaf 130607449352698032)))
 (.node 2 (.node 1 (.leaf 130654359953200320)
 (.leaf 130659363939947488))
 (.node 1 (.leaf 130720540629203600)
 (.leaf 130722423921549632))))
 (.node 4 (.node 2 (.node 1 (.leaf 130747424253387984)
 (.leaf 130750484727417024))
 (.node 1 (.leaf 130755970041010560)
 (.leaf 130814411260279312)))
 (.node 2 (.node 1 (.leaf 130832622848130912)
 (.leaf 130844969125364720))
 (.node 1 (.leaf 130884993172083120)
 (.leaf 130943033180882336))))))
 (.node 16 (.node 8 (.node 4 (.node 2 (.node 1 (.leaf 130984396500451296)
 (.leaf 130997939594708592))
 (.node 1 (.leaf 131024663255212576)
 (.leaf 131055742160104976)))
 (.node 2 (.node 1 (.leaf 131076171921600336)
 (.leaf 131079872425430144))
 (.node 1 (.leaf 131130059307993472)
 (.leaf 131229063895031872))))
 (.node 4 (.node 2 (.node 1 (.leaf 131345477089572224)
 (.leaf 131353101740019952))
 (.node 1 (.leaf 131377897106931088)
 (.leaf 131409787830592704)))
 (.node 2 (.node 1 (.leaf 131430293249067472)
 (.leaf 131436349623687968))
 (.node 1 (.leaf 131495570703614528)
 (.leaf 131557997006681728)))))
 (.node 8 (.node 4 (.node 2 (.node 1 (.leaf 131566391126463152)
 (.leaf 131629550469986128))
 (.node 1 (.leaf 131713177147483536)
 (.leaf 131717581048134960)))
 (.node 2 (.node 1 (.leaf 131738232153050016)
 (.leaf 131738860180553408))
 (.node 1 (.leaf 131739832509347872)
 (.leaf 131757936239429232))))
 (.node 4 (.node 2 (.node 1 (.leaf 131800288571577344)
 (.leaf 131838208442245760))
 (.node 1 (.leaf 131844896366497408)
 (.leaf 131937405616053536)))
 (.node 2 (.node 1 (.leaf 131961787404445072)
 (.leaf 132024273583449696))
 (.node 1 (.leaf 132055448341595248)
 (.leaf 132066168700872240)))))))))
 (.node 128 (.node 64 (.node 32 (.node 16 (.node 8 (.node 4 (.node 2 (.node 1 (.leaf 132119799755927344)
 (.leaf 132143755642566000))
 (.node 1 (.leaf 132144841829399456)
 (.leaf 132163763993352720)))
 (.node 2 (.node 1 (.leaf 132165397845509408)
 (.leaf 132176135304989408))
 (.node 1 (.leaf 132212816259604016)
 (.leaf 132226985309478176))))
 (.node 4 (.node 2 (.node 1 (.leaf 132238721138170384)
 (.leaf 132244806647222736))
 (.node 1 (.leaf 132250710498902688)
 (.leaf 132268393244760528)))
 (.node 2 (.node 1 (.leaf 132274432944142640)
 (.leaf 132274853189661008))
 (.node 1 (.leaf 132292017042453760)
 (.leaf 132319117285659872)))))
 (.node 8 (.node 4 (.node 2 (.node 1 (.leaf 132381785194998080)
 (.leaf 132456198525689776))
 (.node 1 (.leaf 132611668544889088)
 (.leaf 132681076605093952)))
 (.node 2 (.node 1 (.leaf 132715217831309072)
 (.leaf 132720939621838144))
 (.node 1 (.leaf 132771613473591664)
 (.leaf 132772960700040240))))
 (.node 4 (.node 2 (.node 1 (.leaf 132788955798701920)
 (.leaf 132851614956975728))
 (.node 1 (.leaf 132876330899397584)
 (.leaf 132895956375636576)))
 (.node 2 (.node 1 (.leaf 132932748812055216)
 (.leaf 133000732469606576))
 (.node 1 (.leaf 133011618736863184)
 (.leaf 133018175191575760))))))
 (.node 16 (.node 8 (.node 4 (.node 2 (.node 1 (.leaf 133045016380178624)
 (.leaf 133099117585513536))
 (.node 1 (.leaf 133103422463185392)
 (.leaf 133122675118693264)))
 (.node 2 (.node 1 (.leaf 133163456774994464)
 (.leaf 133211008652425680))
 (.node 1 (.leaf 133327918194127760)
 (.leaf 133347261609075904))))
 (.node 4 (.node 2 (.node 1 (.leaf 133432661610623744)
 (.leaf 133493624574003808))
 (.node 1 (.leaf 133524496519661808)
 (.leaf 133526269992404224)))
 (.node 2 (.node 1 (.leaf 133558503168289008)
 (.leaf 133578318133569648))
 (.node 1 (.leaf 133626684894335792)
 (.leaf 133633643671683408)))))
 (.node 8 (.node 4 (.node 2 (.node 1 (.leaf 133636132839342640)
 (.leaf 133645293861786832))
 (.node 1 (.leaf 133670047860744688)
 (.leaf 133719210376312704)))
 (.node 2 (.node 1 (.leaf 133817831146194928)
 (.leaf 133874816099132816))
 (.node 1 (.leaf 133883540204029520)
 (.leaf 133898092708582208))))
 (.node 4 (.node 2 (.node 1 (.leaf 133899019160790800)
 (.leaf 133914036465166368))
 (.node 1 (.leaf 133989339148311440)
 (.leaf 134010100308419632)))
 (.node 2 (.node 1 (.leaf 134028040109168208)
 (.leaf 134086238477376464))
 (.node 1 (.leaf 134151209367686592)
 (.leaf 134173275377944368)))))))
 (.node 32 (.node 16 (.node 8 (.node 4 (.node 2 (.node 1 (.leaf 134176050187694944)
 (.leaf 134234949278608256))
 (.node 1 (.leaf 134253309014281952)
 (.leaf 134264936259835344)))
 (.node 2 (.node 1 (.leaf 134268023608598672)
 (.leaf 134315265028424720))
 (.node 1 (.leaf 134377707299590496)
 (.leaf 134458119386981984))))
 (.node 4 (.node 2 (.node 1 (.leaf 134459972736362512)
 (.leaf 134527590386192528))
 (.node 1 (.leaf 134545396095591840)
 (.leaf 134629454426412544)))
 (.node 2 (.node 1 (.leaf 134656175963089840)
 (.leaf 134699526264145328))
 (.node 1 (.leaf 134702937502969296)
 (.leaf 134708787282450416)))))
 (.node 8 (.node 4 (.node 2 (.node 1 (.leaf 134723155432656192)
 (.leaf 134767669715328544))
 (.node 1 (.leaf 134773697870178304)
 (.leaf 134782445273657312)))
 (.node 2 (.node 1 (.leaf 134829573451353568)
 (.leaf 134923298995285200))
 (.node 1 (.leaf 135029449231472912)
 (.leaf 135034869483802304))))
 (.node 4 (.node 2 (.node 1 (.leaf 135128737313886064)
 (.leaf 135233696529009072))
 (.node 1 (.leaf 135242418339368496)
 (.leaf 135265139004672688)))
 (.node 2 (.node 1 (.leaf 135277067271308928)
 (.leaf 135423805395589552))
 (.node 1 (.leaf 135433592733630816)
 (.leaf 135452326449458880))))))
 (.node 16 (.node 8 (.node 4 (.node 2 (.node 1 (.leaf 135460151753496192)
 (.leaf 135468455451682272))
 (.node 1 (.leaf 135513196762670576)
 (.leaf 135531816961253408)))
 (.node 2 (.node 1 (.leaf 135573057168328560)
 (.leaf 135615242125110608))
 (.node 1 (.leaf 135624156572214576)
 (.leaf 135648031624149280))))
 (.node 4 (.node 2 (.node 1 (.leaf 135705673658656304)
 (.leaf 135722286554566064))
 (.node 1 (.leaf 135729001694799712)
 (.leaf 135748197830515728)))
 (.node 2 (.node 1 (.leaf 135807202898595392)
 (.leaf 135974458848754544))
 (.node 1 (.leaf 135982187739943408)
 (.leaf 135988371240184544)))))
 (.node 8 (.node 4 (.node 2 (.node 1 (.leaf 135990406615504816)
 (.leaf 136031214115486992))
 (.node 1 (.leaf 136090632635134720)
 (.leaf 136122589120977504)))
 (.node 2 (.node 1 (.leaf 136180480099881648)
 (.leaf 136220030824309344))
 (.node 1 (.leaf 136232179347911488)
 (.leaf 136245164180873120))))
 (.node 4 (.node 2 (.node 1 (.leaf 136259902067762848)
 (.leaf 136274795545118400))
 (.node 1 (.leaf 136299655869660576)
 (.leaf 136383195144836624)))
 (.node 2 (.node 1 (.leaf 136384752120966144)
 (.leaf 136420050888312928))
 (.node 1 (.leaf 136428799165422816)
 (.leaf 136487462235582528))))))))
 (.node 64 (.node 32 (.node 16 (.node 8 (.node 4 (.node 2 (.node 1 (.leaf 136536446148273536)
 (.leaf 136564030412158384))
 (.node 1 (.leaf 136665682514939728)
 (.leaf 136702949674075504)))
 (.node 2 (.node 1 (.leaf 136770964619542112)
 (.leaf 136810671666791248))
 (.node 1 (.leaf 136818230601713216)
 (.leaf 136855507021885472))))
 (.node 4 (.node 2 (.node 1 (.leaf 136879683351952016)
 (.leaf 136941842656667712))
 (.node 1 (.leaf 136966292428111776)
 (.leaf 137013163912213888)))
 (.node 2 (.node 1 (.leaf 137039573149219808)
 (.leaf 137042607367811632))
 (.node 1 (.leaf 137047738263440288)
 (.leaf 137103924129131248)))))
 (.node 8 (.node 4 (.node 2 (.node 1 (.leaf 137116177844550384)
 (.leaf 137197200236200352))
 (.node 1 (.leaf 137232499415521840)
 (.leaf 137376143931223104)))
 (.node 2 (.node 1 (.leaf 137433092087273952)
 (.leaf 137479161479483808))
 (.node 1 (.leaf 137483396165615584)
 (.leaf 137688762487071456))))
 (.node 4 (.node 2 (.node 1 (.leaf 137763771183815840)
 (.leaf 137773516538507584))
 (.node 1 (.leaf 137780996507572848)
 (.leaf 137839642846461888)))
 (.node 2 (.node 1 (.leaf 137904225132551328)
 (.leaf 137929426736425792))
 (.node 1 (.leaf 137977066769485040)
 (.leaf 138118055838923904))))))
 (.node 16 (.node 8 (.node 4 (.node 2 (.node 1 (.leaf 138121724899512832)
 (.leaf 138143096348414688))
 (.node 1 (.leaf 138225684690635712)
 (.leaf 138260240047647712)))
 (.node 2 (.node 1 (.leaf 138361095759198224)
 (.leaf 138392440906094320))
 (.node 1 (.leaf 138431018545503680)
 (.leaf 138432032261888144))))
 (.node 4 (.node 2 (.node 1 (.leaf 138486537491163696)
 (.leaf 138577986406202832))
 (.node 1 (.leaf 138586990747909920)
 (.leaf 138634655042336576)))
 (.node 2 (.node 1 (.leaf 138639671801959552)
 (.leaf 138710487281583024))
 (.node 1 (.leaf 138726311535146288)
 (.leaf 138792268590768288)))))
 (.node 8 (.node 4 (.node 2 (.node 1 (.leaf 138802633377291968)
 (.leaf 138836384596073808))
 (.node 1 (.leaf 138844212747998752)
 (.leaf 138873716807857088)))
 (.node 2 (.node 1 (.leaf 138911119748493712)
 (.leaf 138914317694569968))
 (.node 1 (.leaf 138921714544001424)
 (.leaf 138949765254000256))))
 (.node 4 (.node 2 (.node 1 (.leaf 138973339777082896)
 (.leaf 138987996146603568))
 (.node 1 (.leaf 139079196432006688)
 (.leaf 139090600411360608)))
 (.node 2 (.node 1 (.leaf 139148836982807440)
 (.leaf 139237680048949216))
 (.node 1 (.leaf 139251360430465888)
 (.leaf 139362435478249920)))))))
 (.node 32 (.node 16 (.node 8 (.node 4 (.node 2 (.node 1 (.leaf 139442436152676464)
 (.leaf 139489875731610016))
 (.node 1 (.leaf 139493107776780640)
 (.leaf 139513729190007120)))
 (.node 2 (.node 1 (.leaf 139519836248806704)
 (.leaf 139556266932373440))
 (.node 1 (.leaf 139583253046718816)
 (.leaf 139614753118828016))))
 (.node 4 (.node 2 (.node 1 (.leaf 139670722805726224)
 (.leaf 139709429618733408))
 (.node 1 (.leaf 139776478172544448)
 (.leaf 139790367591315136)))
 (.node 2 (.node 1 (.leaf 139846525909148496)
 (.leaf 139888832210920128))
 (.node 1 (.leaf 139938057457306976)
 (.leaf 139981646474576544)))))
 (.node 8 (.node 4 (.node 2 (.node 1 (.leaf 139991040055632352)
 (.leaf 139995955557915968))
 (.node 1 (.leaf 140037428377374640)
 (.leaf 140041658041417424)))
 (.node 2 (.node 1 (.leaf 140126154947707200)
 (.leaf 140148285036671088))
 (.node 1 (.leaf 140261522570104928)
 (.leaf 140268902219640416))))
 (.node 4 (.node 2 (.node 1 (.leaf 140321913472397360)
 (.leaf 140328686717403040))
 (.node 1 (.leaf 140354332253856368)
 (.leaf 140359235191689440)))
 (.node 2 (.node 1 (.leaf 140365437807600912)
 (.leaf 140395572870585104))
 (.node 1 (.leaf 140424626982271984)
 (.leaf 140425988862726784))))))
 (.node 16 (.node 8 (.node 4 (.node 2 (.node 1 (.leaf 140455382462641936)
 (.leaf 140459699269788560))
 (.node 1 (.leaf 140465664531488368)
 (.leaf 140505549962429936)))
 (.node 2 (.node 1 (.leaf 140514562058041200)
 (.leaf 140524255867948528))
 (.node 1 (.leaf 140527530548815056)
 (.leaf 140563192083265296))))
 (.node 4 (.node 2 (.node 1 (.leaf 140570588278680704)
 (.leaf 140591592721325008))
 (.node 1 (.leaf 140624502646623488)
 (.leaf 140642586664468544)))
 (.node 2 (.node 1 (.leaf 140669976378593168)
 (.leaf 140686306681707424))
 (.node 1 (.leaf 140764024054429824)
 (.leaf 140786770953394048)))))
 (.node 8 (.node 4 (.node 2 (.node 1 (.leaf 140802330931464448)
 (.leaf 141055303689211776))
 (.node 1 (.leaf 141090597085627440)
 (.leaf 141103765815853696)))
 (.node 2 (.node 1 (.leaf 141142259022966032)
 (.leaf 141202829039104048))
 (.node 1 (.leaf 141307909985974928)
 (.leaf 141317943072990192))))
 (.node 4 (.node 2 (.node 1 (.leaf 141343922104333168)
 (.leaf 141345149610111920))
 (.node 1 (.leaf 141434993314909568)
 (.leaf 141465511283846480)))
 (.node 2 (.node 1 (.leaf 141544186353595936)
 (.leaf 141577761921164144))
 (.node 1 (.leaf 141595349778290432)
 (.leaf 141615531807054928))))))))))))
 (.node 1024 (.node 512 (.node 256 (.node 128 (.node 64 (.node 32 (.node 16 (.node 8 (.node 4 (.node 2 (.node 1 (.leaf 141707018936805632)
 (.leaf 141732627496252656))
 (.node 1 (.leaf 141766248218364096)
 (.leaf 141766773120449536)))
 (.node 2 (.node 1 (.leaf 141767321064971280)
 (.leaf 141771694166288496))
 (.node 1 (.leaf 141849241697629568)
 (.leaf 141851375362880912))))
 (.node 4 (.node 2 (.node 1 (.leaf 141866646882305872)
 (.leaf 141893834464001072))
 (.node 1 (.leaf 141894283722163936)
 (.leaf 141925587828352512)))
 (.node 2 (.node 1 (.leaf 141932127329176992)
 (.leaf 141946483380029072))
 (.node 1 (.leaf 141962485675347904)
 (.leaf 142030946436277728)))))
 (.node 8 (.node 4 (.node 2 (.node 1 (.leaf 142076650377658848)
 (.leaf 142134835314149408))
 (.node 1 (.leaf 142169413998916064)
 (.leaf 142202480667893376)))
 (.node 2 (.node 1 (.leaf 142206519708822336)
 (.leaf 142230081759560704))
 (.node 1 (.leaf 142234769729289488)
 (.leaf 142239123869268224))))
 (.node 4 (.node 2 (.node 1 (.leaf 142328191747400144)
 (.leaf 142404030268910512))
 (.node 1 (.leaf 142423092294115184)
 (.leaf 142424314124559840)))
 (.node 2 (.node 1 (.leaf 142452615729474848)
 (.leaf 142454980420637392))
 (.node 1 (.leaf 142486407478235616)
 (.leaf 142506894214709952))))))
 (.node 16 (.node 8 (.node 4 (.node 2 (.node 1 (.leaf 142514643558085344)
 (.leaf 142518497104674000))
 (.node 1 (.leaf 142563178990241360)
 (.leaf 142569396634361504)))
 (.node 2 (.node 1 (.leaf 142626322244252448)
 (.leaf 142640107075327968))
 (.node 1 (.leaf 142648413071375264)
 (.leaf 142669847187199552))))
 (.node 4 (.node 2 (.node 1 (.leaf 142671813230819200)
 (.leaf 142675822897792880))
 (.node 1 (.leaf 142693407098880512)
 (.leaf 142728504634048880)))
 (.node 2 (.node 1 (.leaf 142787756578053344)
 (.leaf 142800103348972000))
 (.node 1 (.leaf 142852864714937008)
 (.leaf 142960758495385968)))))
 (.node 8 (.node 4 (.node 2 (.node 1 (.leaf 143003912639188192)
 (.leaf 143015462220804896))
 (.node 1 (.leaf 143077579992756480)
 (.leaf 143219788439009568)))
 (.node 2 (.node 1 (.leaf 143255616783308880)
 (.leaf 143290238323629696))
 (.node 1 (.leaf 143294391924601360)
 (.leaf 143300154711037264))))
 (.node 4 (.node 2 (.node 1 (.leaf 143303126820427840)
 (.leaf 143318790657052528))
 (.node 1 (.leaf 143335419894701808)
 (.leaf 143338079754918656)))
 (.node 2 (.node 1 (.leaf 143368446739203600)
 (.leaf 143408147196372848))
 (.node 1 (.leaf 143434544945443600)
 (.leaf 143452528380083600)))))))
 (.node 32 (.node 16 (.node 8 (.node 4 (.node 2 (.node 1 (.leaf 143469116758580416)
 (.leaf 143475521631935536))
 (.node 1 (.leaf 143501748622306784)
 (.leaf 143507572880860208)))
 (.node 2 (.node 1 (.leaf 143541667727586768)
 (.leaf 143591261318443808))
 (.node 1 (.leaf 143684568991999024)
 (.leaf 143699875431922448))))
 (.node 4 (.node 2 (.node 1 (.leaf 143701691633520704)
 (.leaf 143709265093253600))
 (.node 1 (.leaf 143735861333118224)
 (.leaf 143748290262575680)))
 (.node 2 (.node 1 (.leaf 143749046219604656)
 (.leaf 143781779058805056))
 (.node 1 (.leaf 143799946363065040)
 (.leaf 143814925246715392)))))
 (.node 8 (.node 4 (.node 2 (.node 1 (.leaf 143815024936790784)
 (.leaf 143824831126633936))
 (.node 1 (.leaf 143921407214204704)
 (.leaf 144223682096782304)))
 (.node 2 (.node 1 (.leaf 144253624584704864)
 (.leaf 144259488948621568))
 (.node 1 (.leaf 144333746505729728)
 (.leaf 144360575376190528))))
 (.node 4 (.node 2 (.node 1 (.leaf 144374172613084672)
 (.leaf 144380337064687840))
 (.node 1 (.leaf 144399786618518528)
 (.leaf 144427260838227616)))
 (.node 2 (.node 1 (.leaf 144429507024208352)
 (.leaf 144440116054348288))
 (.node 1 (.leaf 144487860717970400)
 (.leaf 144515295156953248))))))
 (.node 16 (.node 8 (.node 4 (.node 2 (.node 1 (.leaf 144528229406804672)
 (.leaf 144584647971647104))
 (.node 1 (.leaf 144593368069604000)
 (.leaf 144598599915288960)))
 (.node 2 (.node 1 (.leaf 144674980123289984)
 (.leaf 144681739651583648))
 (.node 1 (.leaf 144682696837122752)
 (.leaf 144685450604416256))))
 (.node 4 (.node 2 (.node 1 (.leaf 144699355809849952)
 (.leaf 144712006280008384))
 (.node 1 (.leaf 144735555540823808)
 (.leaf 144855678028050464)))
 (.node 2 (.node 1 (.leaf 144870718941289568)
 (.leaf 144900269094313600))
 (.node 1 (.leaf 144931578363466368)
 (.leaf 144968942044984032)))))
 (.node 8 (.node 4 (.node 2 (.node 1 (.leaf 145031663076357024)
 (.leaf 145060334972700096))
 (.node 1 (.leaf 145061579496635232)
 (.leaf 145113305072739200)))
 (.node 2 (.node 1 (.leaf 145126782051777184)
 (.leaf 145128071263002176))
 (.node 1 (.leaf 145129519847497344)
 (.leaf 145152972006765952))))
 (.node 4 (.node 2 (.node 1 (.leaf 145177649100257344)
 (.leaf 145200736147216544))
 (.node 1 (.leaf 145306079887480320)
 (.leaf 145318575022196992)))
 (.node 2 (.node 1 (.leaf 145332250994443712)
 (.leaf 145412494789736640))
 (.node 1 (.leaf 145467101986842368)
 (.leaf 145548825412461120))))))))
 (.node 64 (.node 32 (.node 16 (.node 8 (.node 4 (.node 2 (.node 1 (.leaf 145555744781815040)
 (.leaf 145604151546387360))
 (.node 1 (.leaf 145673511152821376)
 (.leaf 145703863787499392)))
 (.node 2 (.node 1 (.leaf 145705619347338336)
 (.leaf 145857045733788096))
 (.node 1 (.leaf 145870765092124096)
 (.leaf 145949404258804416))))
 (.node 4 (.node 2 (.node 1 (.leaf 145957585519577280)
 (.leaf 145961899039364224))
 (.node 1 (.leaf 146035506025650784)
 (.leaf 146064934994657088)))
 (.node 2 (.node 1 (.leaf 146097874193241696)
 (.leaf 146138417168454720))
 (.node 1 (.leaf 146217159806518624)
 (.leaf 146255835846117536)))))
 (.node 8 (.node 4 (.node 2 (.node 1 (.leaf 146288916057726400)
 (.leaf 146314102137870144))
 (.node 1 (.leaf 146321428838107808)
 (.leaf 146366838314152608)))
 (.node 2 (.node 1 (.leaf 146380223492797344)
 (.leaf 146380333091610848))
 (.node 1 (.leaf 146404579448326464)
 (.leaf 146442273585560992))))
 (.node 4 (.node 2 (.node 1 (.leaf 146481443446680320)
 (.leaf 146497279753172256))
 (.node 1 (.leaf 146616123031736192)
 (.leaf 146650434336440224)))
 (.node 2 (.node 1 (.leaf 146688817740913216)
 (.leaf 146694178326807776))
 (.node 1 (.leaf 146720882167421920)
 (.leaf 146731930199285920))))))
 (.node 16 (.node 8 (.node 4 (.node 2 (.node 1 (.leaf 146814016141822144)
 (.leaf 146916657231923488))
 (.node 1 (.leaf 147042371458559456)
 (.leaf 147065163483795008)))
 (.node 2 (.node 1 (.leaf 147163910645357856)
 (.leaf 147474849329410560))
 (.node 1 (.leaf 147527019305961056)
 (.leaf 147532061132131936))))
 (.node 4 (.node 2 (.node 1 (.leaf 147571734120644384)
 (.leaf 147603689282791648))
 (.node 1 (.leaf 147622676555736544)
 (.leaf 147685794734880416)))
 (.node 2 (.node 1 (.leaf 147711331086865728)
 (.leaf 147730028997930368))
 (.node 1 (.leaf 147749919096866912)
 (.leaf 147757794808523040)))))
 (.node 8 (.node 4 (.node 2 (.node 1 (.leaf 147844148048283840)
 (.leaf 147855388204012800))
 (.node 1 (.leaf 147911234524345120)
 (.leaf 147951194366072224)))
 (.node 2 (.node 1 (.leaf 147962791753981888)
 (.leaf 148075133977568480))
 (.node 1 (.leaf 148100610750884768)
 (.leaf 148102030539929760))))
 (.node 4 (.node 2 (.node 1 (.leaf 148169998310554368)
 (.leaf 148381580218838304))
 (.node 1 (.leaf 148419946677137824)
 (.leaf 148448982572938816)))
 (.node 2 (.node 1 (.leaf 148455271507682464)
 (.leaf 148495396725658624))
 (.node 1 (.leaf 148507755321945792)
 (.leaf 148554488115990432)))))))
 (.node 32 (.node 16 (.node 8 (.node 4 (.node 2 (.node 1 (.leaf 148570174024121856)
 (.leaf 148577335960306688))
 (.node 1 (.leaf 148579313257324352)
 (.leaf 148647266817706720)))
 (.node 2 (.node 1 (.leaf 148731788421023776)
 (.leaf 148744728873632896))
 (.node 1 (.leaf 148815047639608384)
 (.leaf 148836028033464992))))
 (.node 4 (.node 2 (.node 1 (.leaf 148888005003800000)
 (.leaf 148894438957554752))
 (.node 1 (.leaf 148912405431013888)
 (.leaf 148922497288941024)))
 (.node 2 (.node 1 (.leaf 148941615923534304)
 (.leaf 148955094885703968))
 (.node 1 (.leaf 149062381702936608)
 (.leaf 149115790539940352)))))
 (.node 8 (.node 4 (.node 2 (.node 1 (.leaf 149123384917259808)
 (.leaf 149146573892946048))
 (.node 1 (.leaf 149185417865284928)
 (.leaf 149207603779672512)))
 (.node 2 (.node 1 (.leaf 149219787045403328)
 (.leaf 149228557436706048))
 (.node 1 (.leaf 149303284524830912)
 (.leaf 149331860340090272))))
 (.node 4 (.node 2 (.node 1 (.leaf 149438478032718112)
 (.leaf 149471098495870336))
 (.node 1 (.leaf 149483510114141184)
 (.leaf 149504403304690816)))
 (.node 2 (.node 1 (.leaf 149526110474342048)
 (.leaf 149531735436267296))
 (.node 1 (.leaf 149659131411559648)
 (.leaf 149675466077487552))))))
 (.node 16 (.node 8 (.node 4 (.node 2 (.node 1 (.leaf 149679968006516096)
 (.leaf 149700732727273824))
 (.node 1 (.leaf 149791720301475360)
 (.leaf 149796918659536800)))
 (.node 2 (.node 1 (.leaf 149850386250930624)
 (.leaf 150017305077873152))
 (.node 1 (.leaf 150098381571751392)
 (.leaf 150151612000332512))))
 (.node 4 (.node 2 (.node 1 (.leaf 150161761878450304)
 (.leaf 150165816520306176))
 (.node 1 (.leaf 150226376571077184)
 (.leaf 150267700144753184)))
 (.node 2 (.node 1 (.leaf 150356549045791712)
 (.leaf 150368751247884480))
 (.node 1 (.leaf 150418232211899200)
 (.leaf 150436501783423232)))))
 (.node 8 (.node 4 (.node 2 (.node 1 (.leaf 150458739456289440)
 (.leaf 150565415454797568))
 (.node 1 (.leaf 150566741820983392)
 (.leaf 150599194043233696)))
 (.node 2 (.node 1 (.leaf 150659993319363552)
 (.leaf 150772316873325600))
 (.node 1 (.leaf 150779844677967296)
 (.leaf 150884747799066144))))
 (.node 4 (.node 2 (.node 1 (.leaf 150962767575790528)
 (.leaf 150976143920281664))
 (.node 1 (.leaf 151026954166153472)
 (.leaf 151028552941022208)))
 (.node 2 (.node 1 (.leaf 151085270352755392)
 (.leaf 151091639731067232))
 (.node 1 (.leaf 151139142305719840)
 (.leaf 151151416185333696)))))))))
 (.node 128 (.node 64 (.node 32 (.node 16 (.node 8 (.node 4 (.node 2 (.node 1 (.leaf 151161540867472096)
 (.leaf 151213728060168928))
 (.node 1 (.leaf 151264398182715296)
 (.leaf 151264664600476800)))
 (.node 2 (.node 1 (.leaf 151298990181525824)
 (.leaf 151301732167249952))
 (.node 1 (.leaf 151336364123055616)
 (.leaf 151342456507283040))))
 (.node 4 (.node 2 (.node 1 (.leaf 151381630496710112)
 (.leaf 151393835014022176))
 (.node 1 (.leaf 151424146208780512)
 (.leaf 151458580284366048)))
 (.node 2 (.node 1 (.leaf 151480103032201184)
 (.leaf 151493227711012800))
 (.node 1 (.leaf 151519309855561248)
 (.leaf 151601244682386592)))))
 (.node 8 (.node 4 (.node 2 (.node 1 (.leaf 151638766914330688)
 (.leaf 151648905888402816))
 (.node 1 (.leaf 151683218252172544)
 (.leaf 151705824484316832)))
 (.node 2 (.node 1 (.leaf 151729797889341952)
 (.leaf 151774677472601120))
 (.node 1 (.leaf 151876612504476576)
 (.leaf 151885913828655232))))
 (.node 4 (.node 2 (.node 1 (.leaf 151895075852727424)
 (.leaf 151957219650496448))
 (.node 1 (.leaf 152011456641798400)
 (.leaf 152022181118233984)))
 (.node 2 (.node 1 (.leaf 152033036927436896)
 (.leaf 152073944773223520))
 (.node 1 (.leaf 152092159738497280)
 (.leaf 152107819552613312))))))
 (.node 16 (.node 8 (.node 4 (.node 2 (.node 1 (.leaf 152156597347747808)
 (.leaf 152193546729298144))
 (.node 1 (.leaf 152225687053301728)
 (.leaf 152255475636294688)))
 (.node 2 (.node 1 (.leaf 152301803061564160)
 (.leaf 152308197605963616))
 (.node 1 (.leaf 152331010431378400)
 (.leaf 152359758001283936))))
 (.node 4 (.node 2 (.node 1 (.leaf 152396426976329920)
 (.leaf 152414975484640832))
 (.node 1 (.leaf 152434958619907392)
 (.leaf 152450050935065440)))
 (.node 2 (.node 1 (.leaf 152463399535949952)
 (.leaf 152463431375511392))
 (.node 1 (.leaf 152489342425824064)
 (.leaf 152493073807086848)))))
 (.node 8 (.node 4 (.node 2 (.node 1 (.leaf 152587223925211552)
 (.leaf 152606868637450304))
 (.node 1 (.leaf 152608225539487200)
 (.leaf 152627147826774592)))
 (.node 2 (.node 1 (.leaf 152732853066409248)
 (.leaf 152845159884703328))
 (.node 1 (.leaf 152846914231381152)
 (.leaf 152868667271723936))))
 (.node 4 (.node 2 (.node 1 (.leaf 152948103564512256)
 (.leaf 153061227023164416))
 (.node 1 (.leaf 153105948507806208)
 (.leaf 153121004312585920)))
 (.node 2 (.node 1 (.leaf 153250885223123744)
 (.leaf 153262130024298624))
 (.node 1 (.leaf 153346687383792480)
 (.leaf 153379979951442368)))))))
 (.node 32 (.node 16 (.node 8 (.node 4 (.node 2 (.node 1 (.leaf 153392151249247232)
 (.leaf 153417896785720896))
 (.node 1 (.leaf 153451993206421856)
 (.leaf 153507649056890944)))
 (.node 2 (.node 1 (.leaf 153507764825901664)
 (.leaf 153654844374923072))
 (.node 1 (.leaf 153670604858630944)
 (.leaf 153676406152563136))))
 (.node 4 (.node 2 (.node 1 (.leaf 153696267499567616)
 (.leaf 153732158464152576))
 (.node 1 (.leaf 153815143100099264)
 (.leaf 153883205067963872)))
 (.node 2 (.node 1 (.leaf 153898029358418304)
 (.leaf 153902216293000768))
 (.node 1 (.leaf 153922069621806976)
 (.leaf 154014897229728192)))))
 (.node 8 (.node 4 (.node 2 (.node 1 (.leaf 154024256021257408)
 (.leaf 154024415423449120))
 (.node 1 (.leaf 154084371208594944)
 (.leaf 154087894594024768)))
 (.node 2 (.node 1 (.leaf 154143795662727936)
 (.leaf 154159883741887424))
 (.node 1 (.leaf 154208594893372128)
 (.leaf 154212624577344640))))
 (.node 4 (.node 2 (.node 1 (.leaf 154223945385761536)
 (.leaf 154275092351925600))
 (.node 1 (.leaf 154291666914086240)
 (.leaf 154309620441587360)))
 (.node 2 (.node 1 (.leaf 154326378443198208)
 (.leaf 154390392269093184))
 (.node 1 (.leaf 154404777851048224)
 (.leaf 154460719318180768))))))
 (.node 16 (.node 8 (.node 4 (.node 2 (.node 1 (.leaf 154596555453869536)
 (.leaf 154651586324999104))
 (.node 1 (.leaf 154661470216277536)
 (.leaf 154762877981438336)))
 (.node 2 (.node 1 (.leaf 154770725883418880)
 (.leaf 154868303638841312))
 (.node 1 (.leaf 154934808739396896)
 (.leaf 155036070902655296))))
 (.node 4 (.node 2 (.node 1 (.leaf 155071987634208672)
 (.leaf 155079273296250944))
 (.node 1 (.leaf 155079958723808288)
 (.leaf 155094386287750208)))
 (.node 2 (.node 1 (.leaf 155142308597611264)
 (.leaf 155224326940151136))
 (.node 1 (.leaf 155297351806077536)
 (.leaf 155380965452479328)))))
 (.node 8 (.node 4 (.node 2 (.node 1 (.leaf 155385316847700992)
 (.leaf 155404600851892256))
 (.node 1 (.leaf 155440944020505152)
 (.leaf 155488778345165696)))
 (.node 2 (.node 1 (.leaf 155567379527042464)
 (.leaf 155568370097695616))
 (.node 1 (.leaf 155571999173730944)
 (.leaf 155579101634363456))))
 (.node 4 (.node 2 (.node 1 (.leaf 155648283651991872)
 (.leaf 155698300199958432))
 (.node 1 (.leaf 155714748316337408)
 (.leaf 155725009036990688)))
 (.node 2 (.node 1 (.leaf 155729242534464448)
 (.leaf 155802287451094944))
 (.node 1 (.leaf 155840936905246624)
 (.leaf 155970212809649568))))))))
 (.node 64 (.node 32 (.node 16 (.node 8 (.node 4 (.node 2 (.node 1 (.leaf 156003877910966464)
 (.leaf 156024229523307936))
 (.node 1 (.leaf 156033961342910752)
 (.leaf 156040316888546176)))
 (.node 2 (.node 1 (.leaf 156067186935190208)
 (.leaf 156082162062760480))
 (.node 1 (.leaf 156154400001679200)
 (.leaf 156168757839010880))))
 (.node 4 (.node 2 (.node 1 (.leaf 156186776110618240)
 (.leaf 156296054187295936))
 (.node 1 (.leaf 156315701706044832)
 (.leaf 156357035909562912)))
 (.node 2 (.node 1 (.leaf 156357373871127456)
 (.leaf 156406999087402976))
 (.node 1 (.leaf 156442097110951104)
 (.leaf 156475656642945408)))))
 (.node 8 (.node 4 (.node 2 (.node 1 (.leaf 156533603651714656)
 (.leaf 156564699018154464))
 (.node 1 (.leaf 156575682895150560)
 (.leaf 156608720965028544)))
 (.node 2 (.node 1 (.leaf 156658183319432736)
 (.leaf 156659914348382016))
 (.node 1 (.leaf 156735391290376384)
 (.leaf 156759904242464544))))
 (.node 4 (.node 2 (.node 1 (.leaf 156896524759453984)
 (.leaf 156910802002201952))
 (.node 1 (.leaf 156942621205916992)
 (.leaf 156961652890109376)))
 (.node 2 (.node 1 (.leaf 156983520137587552)
 (.leaf 157071149562821408))
 (.node 1 (.leaf 157091504738904576)
 (.leaf 157141975544758176))))))
 (.node 16 (.node 8 (.node 4 (.node 2 (.node 1 (.leaf 157145066971982528)
 (.leaf 157163322508549824))
 (.node 1 (.leaf 157226439493749856)
 (.leaf 157326939213166240)))
 (.node 2 (.node 1 (.leaf 157347816205532320)
 (.leaf 157387979934772480))
 (.node 1 (.leaf 157407060372715168)
 (.leaf 157513517455771264))))
 (.node 4 (.node 2 (.node 1 (.leaf 157539007780306880)
 (.leaf 157593692194066752))
 (.node 1 (.leaf 157608821204006752)
 (.leaf 157629704510968416)))
 (.node 2 (.node 1 (.leaf 157644497120320032)
 (.leaf 157672810416033600))
 (.node 1 (.leaf 157677312197788352)
 (.leaf 157678367172385472)))))
 (.node 8 (.node 4 (.node 2 (.node 1 (.leaf 157684718366894720)
 (.leaf 157736196463905920))
 (.node 1 (.leaf 157829418204995744)
 (.leaf 157919894538402272)))
 (.node 2 (.node 1 (.leaf 157991269137196928)
 (.leaf 158052737958051712))
 (.node 1 (.leaf 158076116472677088)
 (.leaf 158112859974057664))))
 (.node 4 (.node 2 (.node 1 (.leaf 158113720331273792)
 (.leaf 158152905731566944))
 (.node 1 (.leaf 158281697322567520)
 (.leaf 158323919675478752)))
 (.node 2 (.node 1 (.leaf 158370533517979552)
 (.leaf 158449294753065248))
 (.node 1 (.leaf 158455716878405728)
 (.leaf 158491318118465056)))))))
 (.node 32 (.node 16 (.node 8 (.node 4 (.node 2 (.node 1 (.leaf 158530466797867424)
 (.leaf 158576861237536192))
 (.node 1 (.leaf 158682521782454112)
 (.leaf 158771684445828800)))
 (.node 2 (.node 1 (.leaf 158777817161577344)
 (.leaf 158862767163535904))
 (.node 1 (.leaf 158971723878381696)
 (.leaf 158978098603053248))))
 (.node 4 (.node 2 (.node 1 (.leaf 159016083097626880)
 (.leaf 159043620436384288))
 (.node 1 (.leaf 159070339882125504)
 (.leaf 159132885529977728)))
 (.node 2 (.node 1 (.leaf 159261235458931872)
 (.leaf 159459185056431328))
 (.node 1 (.leaf 159462892458388000)
 (.leaf 159545141513522816)))))
 (.node 8 (.node 4 (.node 2 (.node 1 (.leaf 159584797605424896)
 (.leaf 159611602330311328))
 (.node 1 (.leaf 159668574134381376)
 (.leaf 159700938401736224)))
 (.node 2 (.node 1 (.leaf 159809603180302752)
 (.leaf 159828453065011840))
 (.node 1 (.leaf 159832359261042912)
 (.leaf 159841761454917728))))
 (.node 4 (.node 2 (.node 1 (.leaf 159889805242743648)
 (.leaf 159904038684830848))
 (.node 1 (.leaf 159923789203063680)
 (.leaf 159955438676714496)))
 (.node 2 (.node 1 (.leaf 160005397605695968)
 (.leaf 160099833937054880))
 (.node 1 (.leaf 160172766652995232)
 (.leaf 160244834838003232))))))
 (.node 16 (.node 8 (.node 4 (.node 2 (.node 1 (.leaf 160364813130602624)
 (.leaf 160378434741459584))
 (.node 1 (.leaf 160464883567060320)
 (.leaf 160482252692732608)))
 (.node 2 (.node 1 (.leaf 160487272903994272)
 (.leaf 160572478415278816))
 (.node 1 (.leaf 160620849267490208)
 (.leaf 160684718424587008))))
 (.node 4 (.node 2 (.node 1 (.leaf 160789824910306112)
 (.leaf 160818920865600864))
 (.node 1 (.leaf 160959858881946112)
 (.leaf 161013729255379232)))
 (.node 2 (.node 1 (.leaf 161031594696641088)
 (.leaf 161033112078706976))
 (.node 1 (.leaf 161055973996296192)
 (.leaf 161110493911999520)))))
 (.node 8 (.node 4 (.node 2 (.node 1 (.leaf 161134526196113056)
 (.leaf 161254546986420064))
 (.node 1 (.leaf 161314909968623520)
 (.leaf 161353702180389152)))
 (.node 2 (.node 1 (.leaf 161391224730606176)
 (.leaf 161416623089286720))
 (.node 1 (.leaf 161477296471821952)
 (.leaf 161505108789606816))))
 (.node 4 (.node 2 (.node 1 (.leaf 161526865405269728)
 (.leaf 161548176620497056))
 (.node 1 (.leaf 161550620714542944)
 (.leaf 161657342517207232)))
 (.node 2 (.node 1 (.leaf 161698395612152096)
 (.leaf 161754732018822656))
 (.node 1 (.leaf 161756042615059360)
 (.leaf 161805064148880032))))))))))
 (.node 256 (.node 128 (.node 64 (.node 32 (.node 16 (.node 8 (.node 4 (.node 2 (.node 1 (.leaf 161857150957202432)
 (.leaf 161860001176829184))
 (.node 1 (.leaf 161953785995754976)
 (.leaf 161954501918168352)))
 (.node 2 (.node 1 (.leaf 161955778050221440)
 (.leaf 162009903642012096))
 (.node 1 (.leaf 162029711636138976)
 (.leaf 162045072669751072))))
 (.node 4 (.node 2 (.node 1 (.leaf 162065038494899424)
 (.leaf 162072574844383040))
 (.node 1 (.leaf 162085370837968032)
 (.leaf 162117604470625088)))
 (.node 2 (.node 1 (.leaf 162234090774155040)
 (.leaf 162281959040563936))
 (.node 1 (.leaf 162314864491712992)
 (.leaf 162450827617774464)))))
 (.node 8 (.node 4 (.node 2 (.node 1 (.leaf 162472704006963776)
 (.leaf 162566775877337696))
 (.node 1 (.leaf 162772307596234304)
 (.leaf 162779579940334368)))
 (.node 2 (.node 1 (.leaf 162780498438929216)
 (.leaf 162844837931651904))
 (.node 1 (.leaf 162847155788286048)
 (.leaf 162891068037805984))))
 (.node 4 (.node 2 (.node 1 (.leaf 163087334353213760)
 (.leaf 163090832591715648))
 (.node 1 (.leaf 163171395013885376)
 (.leaf 163253256477360160)))
 (.node 2 (.node 1 (.leaf 163261472981498016)
 (.leaf 163346642291052896))
 (.node 1 (.leaf 163349933743722016)
 (.leaf 163351781446762688))))))
 (.node 16 (.node 8 (.node 4 (.node 2 (.node 1 (.leaf 163385827471721216)
 (.leaf 163414126425327488))
 (.node 1 (.leaf 163415982034978240)
 (.leaf 163458425458198880)))
 (.node 2 (.node 1 (.leaf 163482080422799392)
 (.leaf 163493978744364512))
 (.node 1 (.leaf 163507307508143616)
 (.leaf 163578848013337696))))
 (.node 4 (.node 2 (.node 1 (.leaf 163591900944378848)
 (.leaf 163599147678211424))
 (.node 1 (.leaf 163607912531562784)
 (.leaf 163629873778773856)))
 (.node 2 (.node 1 (.leaf 163649167579452128)
 (.leaf 163693966049141280))
 (.node 1 (.leaf 163708894087694880)
 (.leaf 163737819271281792)))))
 (.node 8 (.node 4 (.node 2 (.node 1 (.leaf 163748929074977152)
 (.leaf 163753911327162816))
 (.node 1 (.leaf 163770851389188096)
 (.leaf 163806590098120128)))
 (.node 2 (.node 1 (.leaf 163822886510073920)
 (.leaf 163939318461188800))
 (.node 1 (.leaf 164147377749341280)
 (.leaf 164150303412038752))))
 (.node 4 (.node 2 (.node 1 (.leaf 164290884415106560)
 (.leaf 164297985726402624))
 (.node 1 (.leaf 164318172511148800)
 (.leaf 164348012583389120)))
 (.node 2 (.node 1 (.leaf 164407517295645952)
 (.leaf 164523003980022432))
 (.node 1 (.leaf 164535055655214144)
 (.leaf 164535602415000736)))))))
 (.node 32 (.node 16 (.node 8 (.node 4 (.node 2 (.node 1 (.leaf 164546225268840128)
 (.leaf 164577350907004064))
 (.node 1 (.leaf 164791746789928032)
 (.leaf 164807885338056768)))
 (.node 2 (.node 1 (.leaf 164854543448635072)
 (.leaf 164873671281027168))
 (.node 1 (.leaf 164956266497169312)
 (.leaf 164989020652916960))))
 (.node 4 (.node 2 (.node 1 (.leaf 165017635809977280)
 (.leaf 165032632436068192))
 (.node 1 (.leaf 165067817628001696)
 (.leaf 165102086065779264)))
 (.node 2 (.node 1 (.leaf 165128777663193120)
 (.leaf 165260407917951904))
 (.node 1 (.leaf 165286767830142560)
 (.leaf 165347338200796608)))))
 (.node 8 (.node 4 (.node 2 (.node 1 (.leaf 165473000890095392)
 (.leaf 165482005708303392))
 (.node 1 (.leaf 165497047809178592)
 (.leaf 165527845319505472)))
 (.node 2 (.node 1 (.leaf 165615373241271104)
 (.leaf 165628712521529792))
 (.node 1 (.leaf 165708821850009856)
 (.leaf 165747135454016800))))
 (.node 4 (.node 2 (.node 1 (.leaf 165799353189815872)
 (.leaf 165803670926142912))
 (.node 1 (.leaf 165808979015912512)
 (.leaf 165904336639909984)))
 (.node 2 (.node 1 (.leaf 165961569219091744)
 (.leaf 166003717499829920))
 (.node 1 (.leaf 166099690435236640)
 (.leaf 166118639286354976))))))
 (.node 16 (.node 8 (.node 4 (.node 2 (.node 1 (.leaf 166140138791341728)
 (.leaf 166213241615738560))
 (.node 1 (.leaf 166253864449437536)
 (.leaf 166363238545077792)))
 (.node 2 (.node 1 (.leaf 166415746534329472)
 (.leaf 166508598402548416))
 (.node 1 (.leaf 166603612804475072)
 (.leaf 166637455479254720))))
 (.node 4 (.node 2 (.node 1 (.leaf 166641489312387968)
 (.leaf 166665470588436736))
 (.node 1 (.leaf 166674096741455328)
 (.leaf 166777739376326592)))
 (.node 2 (.node 1 (.leaf 166824295870130848)
 (.leaf 166895131562366016))
 (.node 1 (.leaf 166950130940634048)
 (.leaf 167051700059999008)))))
 (.node 8 (.node 4 (.node 2 (.node 1 (.leaf 167075879114288448)
 (.leaf 167100765159318528))
 (.node 1 (.leaf 167210541980786176)
 (.leaf 167221807505673056)))
 (.node 2 (.node 1 (.leaf 167275161413376128)
 (.leaf 167290107988290592))
 (.node 1 (.leaf 167296507850692224)
 (.leaf 167298590868541312))))
 (.node 4 (.node 2 (.node 1 (.leaf 167465235953553728)
 (.leaf 167597177135665952))
 (.node 1 (.leaf 167599180795759744)
 (.leaf 167685365438551552)))
 (.node 2 (.node 1 (.leaf 167831286410952896)
 (.leaf 167859147370856192))
 (.node 1 (.leaf 167946809185871232)
 (.leaf 168005602023875904))))))))
 (.node 64 (.node 32 (.node 16 (.node 8 (.node 4 (.node 2 (.node 1 (.leaf 168018920829672768)
 (.leaf 168054991785382208))
 (.node 1 (.leaf 168068931832909824)
 (.leaf 168108109644278432)))
 (.node 2 (.node 1 (.leaf 168121367244317280)
 (.leaf 168135412478977632))
 (.node 1 (.leaf 168319534815050720)
 (.leaf 168325748897617536))))
 (.node 4 (.node 2 (.node 1 (.leaf 168371035345690400)
 (.leaf 168374669791222720))
 (.node 1 (.leaf 168390825828315168)
 (.leaf 168407834789863968)))
 (.node 2 (.node 1 (.leaf 168460946156979424)
 (.leaf 168494426928942624))
 (.node 1 (.leaf 168501632928055136)
 (.leaf 168507380260618080)))))
 (.node 8 (.node 4 (.node 2 (.node 1 (.leaf 168559230281224288)
 (.leaf 168572926522517344))
 (.node 1 (.leaf 168599487480939008)
 (.leaf 168717925255585664)))
 (.node 2 (.node 1 (.leaf 168812938142684352)
 (.leaf 168814547833191360))
 (.node 1 (.leaf 168888076873617472)
 (.leaf 168984454775612576))))
 (.node 4 (.node 2 (.node 1 (.leaf 168992888049045184)
 (.leaf 169153416949807040))
 (.node 1 (.leaf 169179564254762496)
 (.leaf 169180888762494208)))
 (.node 2 (.node 1 (.leaf 169191913757236736)
 (.leaf 169325177772639840))
 (.node 1 (.leaf 169344530957078368)
 (.leaf 169352204872878624))))))
 (.node 16 (.node 8 (.node 4 (.node 2 (.node 1 (.leaf 169358325470547104)
 (.leaf 169444797018687200))
 (.node 1 (.leaf 169478685798656768)
 (.leaf 169483709139747296)))
 (.node 2 (.node 1 (.leaf 169483792415337920)
 (.leaf 169484908618409888))
 (.node 1 (.leaf 169546205479063392)
 (.leaf 169547775560198272))))
 (.node 4 (.node 2 (.node 1 (.leaf 169570711357945984)
 (.leaf 169597400172999296))
 (.node 1 (.leaf 169654376610941856)
 (.leaf 169657996814458784)))
 (.node 2 (.node 1 (.leaf 169753149594342464)
 (.leaf 169820308080051776))
 (.node 1 (.leaf 169823681052615904)
 (.leaf 169830646008591424)))))
 (.node 8 (.node 4 (.node 2 (.node 1 (.leaf 169850553751321632)
 (.leaf 169864180167329696))
 (.node 1 (.leaf 169896907007882208)
 (.leaf 169913719049520416)))
 (.node 2 (.node 1 (.leaf 169959421864472736)
 (.leaf 170032742687649696))
 (.node 1 (.leaf 170047177978068224)
 (.leaf 170136814124436960))))
 (.node 4 (.node 2 (.node 1 (.leaf 170198144487049408)
 (.leaf 170236353209493056))
 (.node 1 (.leaf 170344140583287744)
 (.leaf 170390880469485760)))
 (.node 2 (.node 1 (.leaf 170398243325547008)
 (.leaf 170521541457716000))
 (.node 1 (.leaf 170669063354010976)
 (.leaf 170704316084897856)))))))
 (.node 32 (.node 16 (.node 8 (.node 4 (.node 2 (.node 1 (.leaf 170940331926582912)
 (.leaf 170954169905685728))
 (.node 1 (.leaf 170993502199623520)
 (.leaf 171001374298344544)))
 (.node 2 (.node 1 (.leaf 171017559493765280)
 (.leaf 171063275657210720))
 (.node 1 (.leaf 171132486203434208)
 (.leaf 171232505350415456))))
 (.node 4 (.node 2 (.node 1 (.leaf 171238765282831456)
 (.leaf 171247921040974400))
 (.node 1 (.leaf 171367264812131584)
 (.leaf 171374364621324032)))
 (.node 2 (.node 1 (.leaf 171430398502623008)
 (.leaf 171500391698241696))
 (.node 1 (.leaf 171526879517805344)
 (.leaf 171538029016352608)))))
 (.node 8 (.node 4 (.node 2 (.node 1 (.leaf 171610309499206848)
 (.leaf 171658913697678688))
 (.node 1 (.leaf 171776889830706656)
 (.leaf 171824145362637440)))
 (.node 2 (.node 1 (.leaf 171848436337262528)
 (.leaf 171882305291009472))
 (.node 1 (.leaf 171882833235594240)
 (.leaf 171883011953910944))))
 (.node 4 (.node 2 (.node 1 (.leaf 171965333631921856)
 (.leaf 171971437273282240))
 (.node 1 (.leaf 171987626504237664)
 (.leaf 172124015594977728)))
 (.node 2 (.node 1 (.leaf 172141378600880672)
 (.leaf 172156714078774304))
 (.node 1 (.leaf 172163925424429952)
 (.leaf 172198451894775072))))))
 (.node 16 (.node 8 (.node 4 (.node 2 (.node 1 (.leaf 172387224087920128)
 (.leaf 172496291325974816))
 (.node 1 (.leaf 172508211283151360)
 (.leaf 172521535055406816)))
 (.node 2 (.node 1 (.leaf 172620696234394624)
 (.leaf 172731363252454336))
 (.node 1 (.leaf 172797218051383680)
 (.leaf 172812248930189632))))
 (.node 4 (.node 2 (.node 1 (.leaf 172896860717213408)
 (.leaf 172900050663725120))
 (.node 1 (.leaf 172918131517415104)
 (.leaf 172926713400241664)))
 (.node 2 (.node 1 (.leaf 172950843553586240)
 (.leaf 172992001543248768))
 (.node 1 (.leaf 173042354765248960)
 (.leaf 173156785459492448)))))
 (.node 8 (.node 4 (.node 2 (.node 1 (.leaf 173251180161157280)
 (.leaf 173262622962619168))
 (.node 1 (.leaf 173277728977304800)
 (.leaf 173291287081041984)))
 (.node 2 (.node 1 (.leaf 173316535053193632)
 (.leaf 173323388556883968))
 (.node 1 (.leaf 173395891008039584)
 (.leaf 173494166046310336))))
 (.node 4 (.node 2 (.node 1 (.leaf 173548360234016960)
 (.leaf 173600718918253568))
 (.node 1 (.leaf 173664840858220256)
 (.leaf 173779147421593856)))
 (.node 2 (.node 1 (.leaf 173921925757575744)
 (.leaf 174005189726009376))
 (.node 1 (.leaf 174080036117941088)
 (.leaf 174128917127266016)))))))))
 (.node 128 (.node 64 (.node 32 (.node 16 (.node 8 (.node 4 (.node 2 (.node 1 (.leaf 174414159290871936)
 (.leaf 174530864418109696))
 (.node 1 (.leaf 174591210935929280)
 (.leaf 174614365838036608)))
 (.node 2 (.node 1 (.leaf 174629382729382080)
 (.leaf 174663886446737440))
 (.node 1 (.leaf 174714408923532864)
 (.leaf 174746960019203488))))
 (.node 4 (.node 2 (.node 1 (.leaf 174751761623166496)
 (.leaf 174753352217955488))
 (.node 1 (.leaf 174815425083161888)
 (.leaf 174869215754518048)))
 (.node 2 (.node 1 (.leaf 174918896035309760)
 (.leaf 174943409582400800))
 (.node 1 (.leaf 175046912522164960)
 (.leaf 175197230405642592)))))
 (.node 8 (.node 4 (.node 2 (.node 1 (.leaf 175242379778088832)
 (.leaf 175348203737649152))
 (.node 1 (.leaf 175364574679761248)
 (.leaf 175365074856218592)))
 (.node 2 (.node 1 (.leaf 175377770408765504)
 (.leaf 175381044113506880))
 (.node 1 (.leaf 175386738722381856)
 (.leaf 175389223399202560))))
 (.node 4 (.node 2 (.node 1 (.leaf 175431595284213216)
 (.leaf 175518121778291648))
 (.node 1 (.leaf 175530193194670912)
 (.leaf 175532772871859680)))
 (.node 2 (.node 1 (.leaf 175564065520937728)
 (.leaf 175579912819887264))
 (.node 1 (.leaf 175584235748668736)
 (.leaf 175733084431096992))))))
 (.node 16 (.node 8 (.node 4 (.node 2 (.node 1 (.leaf 175861148418189120)
 (.leaf 176004814783718336))
 (.node 1 (.leaf 176055741687981664)
 (.leaf 176075163720466080)))
 (.node 2 (.node 1 (.leaf 176105970556591232)
 (.leaf 176160079844021344))
 (.node 1 (.leaf 176203207091421952)
 (.leaf 176246103705687712))))
 (.node 4 (.node 2 (.node 1 (.leaf 176475247894573344)
 (.leaf 176491500636419680))
 (.node 1 (.leaf 176600443405548096)
 (.leaf 176616924071953792)))
 (.node 2 (.node 1 (.leaf 176675658673106720)
 (.leaf 176693922923116384))
 (.node 1 (.leaf 176697913494338112)
 (.leaf 176766177228297280)))))
 (.node 8 (.node 4 (.node 2 (.node 1 (.leaf 176893434624434688)
 (.leaf 176903950573025856))
 (.node 1 (.leaf 176939522375302400)
 (.leaf 176996744543013088)))
 (.node 2 (.node 1 (.leaf 177046319128033248)
 (.leaf 177091585414254976))
 (.node 1 (.leaf 177128337633961504)
 (.leaf 177140932106779936))))
 (.node 4 (.node 2 (.node 1 (.leaf 177195930352041632)
 (.leaf 177224030210486496))
 (.node 1 (.leaf 177284967131926432)
 (.leaf 177287970496937408)))
 (.node 2 (.node 1 (.leaf 177291308227170272)
 (.leaf 177323065599262304))
 (.node 1 (.leaf 177384077434499808)
 (.leaf 177417749989622528)))))))
 (.node 32 (.node 16 (.node 8 (.node 4 (.node 2 (.node 1 (.leaf 177427181468822272)
 (.leaf 177536662021341024))
 (.node 1 (.leaf 177546678493544768)
 (.leaf 177645474118633536)))
 (.node 2 (.node 1 (.leaf 177652423934735680)
 (.leaf 177710654740596480))
 (.node 1 (.leaf 177747531128895072)
 (.leaf 177882808598468992))))
 (.node 4 (.node 2 (.node 1 (.leaf 177883827187431264)
 (.leaf 177967009303329312))
 (.node 1 (.leaf 177980660523129856)
 (.leaf 177998457136948896)))
 (.node 2 (.node 1 (.leaf 178103027178772160)
 (.leaf 178135838539696448))
 (.node 1 (.leaf 178143526688734848)
 (.leaf 178153228975452224)))))
 (.node 8 (.node 4 (.node 2 (.node 1 (.leaf 178213698295855264)
 (.leaf 178328275591821792))
 (.node 1 (.leaf 178347198223685696)
 (.leaf 178411461640179360)))
 (.node 2 (.node 1 (.leaf 178710464876299744)
 (.leaf 178731294712357888))
 (.node 1 (.leaf 178769423772292896)
 (.leaf 178797688086914752))))
 (.node 4 (.node 2 (.node 1 (.leaf 178802304892848672)
 (.leaf 178840613992313280))
 (.node 1 (.leaf 178991095514229728)
 (.leaf 179029485056725280)))
 (.node 2 (.node 1 (.leaf 179075925647177440)
 (.leaf 179165081488490368))
 (.node 1 (.leaf 179241240721144544)
 (.leaf 179271178613547744))))))
 (.node 16 (.node 8 (.node 4 (.node 2 (.node 1 (.leaf 179271324851462688)
 (.leaf 179324715789061920))
 (.node 1 (.leaf 179354572447484448)
 (.leaf 179398265604402848)))
 (.node 2 (.node 1 (.leaf 179399949011636832)
 (.leaf 179465462908128832))
 (.node 1 (.leaf 179485698550017248)
 (.leaf 179542266727367392))))
 (.node 4 (.node 2 (.node 1 (.leaf 179588278792831968)
 (.leaf 179613724825155392))
 (.node 1 (.leaf 179673278828698144)
 (.leaf 179709706383140032)))
 (.node 2 (.node 1 (.leaf 179745741607573024)
 (.leaf 179763051088888960))
 (.node 1 (.leaf 179790986952288800)
 (.leaf 179803978616032000)))))
 (.node 8 (.node 4 (.node 2 (.node 1 (.leaf 179849601582731168)
 (.leaf 179874052195988512))
 (.node 1 (.leaf 179893374907080896)
 (.leaf 179920981182952800)))
 (.node 2 (.node 1 (.leaf 179923824967724160)
 (.leaf 179960971403350336))
 (.node 1 (.leaf 179963910778248896)
 (.leaf 180059666530690624))))
 (.node 4 (.node 2 (.node 1 (.leaf 180159215223552960)
 (.leaf 180412366950306656))
 (.node 1 (.leaf 180455318680099456)
 (.leaf 180766580359313472)))
 (.node 2 (.node 1 (.leaf 180784536601212224)
 (.leaf 180789956501636832))
 (.node 1 (.leaf 180893318605521344)
 (.leaf 180921930858233696))))))))
 (.node 64 (.node 32 (.node 16 (.node 8 (.node 4 (.node 2 (.node 1 (.leaf 180994486052513760)
 (.leaf 180997977496296992))
 (.node 1 (.leaf 181068375751316928)
 (.leaf 181096088363763840)))
 (.node 2 (.node 1 (.leaf 181205013777462048)
 (.leaf 181225692261292512))
 (.node 1 (.leaf 181226298434748544)
 (.leaf 181265689548968704))))
 (.node 4 (.node 2 (.node 1 (.leaf 181289043848149280)
 (.leaf 181366714530351648))
 (.node 1 (.leaf 181380732475543008)
 (.leaf 181409143953159136)))
 (.node 2 (.node 1 (.leaf 181603294248961440)
 (.leaf 181617439133350272))
 (.node 1 (.leaf 181636928885527680)
 (.leaf 181741960058005664)))))
 (.node 8 (.node 4 (.node 2 (.node 1 (.leaf 181778029545620704)
 (.leaf 181826842537612192))
 (.node 1 (.leaf 181886397761624832)
 (.leaf 181991242812474176)))
 (.node 2 (.node 1 (.leaf 182063105193831584)
 (.leaf 182070962267161216))
 (.node 1 (.leaf 182078481450416384)
 (.leaf 182099679512200896))))
 (.node 4 (.node 2 (.node 1 (.leaf 182102946070321280)
 (.leaf 182114424804881280))
 (.node 1 (.leaf 182120742139065184)
 (.leaf 182138938190723264)))
 (.node 2 (.node 1 (.leaf 182145594983257952)
 (.leaf 182229538600510848))
 (.node 1 (.leaf 182230579585399840)
 (.leaf 182236099458859456))))))
 (.node 16 (.node 8 (.node 4 (.node 2 (.node 1 (.leaf 182259573502225792)
 (.leaf 182284500858111424))
 (.node 1 (.leaf 182300977053510176)
 (.leaf 182367406332306784)))
 (.node 2 (.node 1 (.leaf 182436500194223008)
 (.leaf 182469937293521664))
 (.node 1 (.leaf 182482413811702848)
 (.leaf 182497895840651232))))
 (.node 4 (.node 2 (.node 1 (.leaf 182636780978857280)
 (.leaf 182688848530490048))
 (.node 1 (.leaf 182818285582392960)
 (.leaf 182872700141652352)))
 (.node 2 (.node 1 (.leaf 182947106499931744)
 (.leaf 182947745120018944))
 (.node 1 (.leaf 182974031232629024)
 (.leaf 182976313574468992)))))
 (.node 8 (.node 4 (.node 2 (.node 1 (.leaf 183027296714787552)
 (.leaf 183096654021111232))
 (.node 1 (.leaf 183182132951081952)
 (.leaf 183205832082021120)))
 (.node 2 (.node 1 (.leaf 183230484998650560)
 (.leaf 183286241386882816))
 (.node 1 (.leaf 183325091253341952)
 (.leaf 183339457083929312))))
 (.node 4 (.node 2 (.node 1 (.leaf 183409401862199328)
 (.leaf 183453950880386848))
 (.node 1 (.leaf 183496706473650816)
 (.leaf 183497480167735936)))
 (.node 2 (.node 1 (.leaf 183520231886873504)
 (.leaf 183577307306346144))
 (.node 1 (.leaf 183675173457390144)
 (.leaf 183700412943763872)))))))
 (.node 32 (.node 16 (.node 8 (.node 4 (.node 2 (.node 1 (.leaf 183718431400896864)
 (.leaf 183858157281358080))
 (.node 1 (.leaf 183947984169252800)
 (.leaf 183965388371114432)))
 (.node 2 (.node 1 (.leaf 184060784549780544)
 (.leaf 184116195780310848))
 (.node 1 (.leaf 184133677048546144)
 (.leaf 184151469433027264))))
 (.node 4 (.node 2 (.node 1 (.leaf 184333285977892768)
 (.leaf 184340606060892896))
 (.node 1 (.leaf 184409524255976448)
 (.leaf 184419156936116960)))
 (.node 2 (.node 1 (.leaf 184463628431281728)
 (.leaf 184499439530744640))
 (.node 1 (.leaf 184555715078074304)
 (.leaf 184608283802043680)))))
 (.node 8 (.node 4 (.node 2 (.node 1 (.leaf 184610499484247968)
 (.leaf 184626223569248352))
 (.node 1 (.leaf 184646345483530880)
 (.leaf 184649178108301600)))
 (.node 2 (.node 1 (.leaf 184656875188250240)
 (.leaf 184692958668308800))
 (.node 1 (.leaf 184738370597959328)
 (.leaf 184882865443048512))))
 (.node 4 (.node 2 (.node 1 (.leaf 184890797790754496)
 (.leaf 184923164670922848))
 (.node 1 (.leaf 184945278789162304)
 (.leaf 185016842241705824)))
 (.node 2 (.node 1 (.leaf 185041840349333312)
 (.leaf 185158838082637472))
 (.node 1 (.leaf 185183018221190048)
 (.leaf 185213389433420416))))))
 (.node 16 (.node 8 (.node 4 (.node 2 (.node 1 (.leaf 185324929881103680)
 (.leaf 185363227526553536))
 (.node 1 (.leaf 185377287716898368)
 (.leaf 185407842967683872)))
 (.node 2 (.node 1 (.leaf 185505517243964768)
 (.leaf 185643409228351904))
 (.node 1 (.leaf 185675154691698848)
 (.leaf 185759730711168928))))
 (.node 4 (.node 2 (.node 1 (.leaf 185795603767865856)
 (.leaf 185798255067876416))
 (.node 1 (.leaf 185825810210597248)
 (.leaf 185940501032865312)))
 (.node 2 (.node 1 (.leaf 186110206953940224)
 (.leaf 186162515975496000))
 (.node 1 (.leaf 186287126870644448)
 (.leaf 186328729799704640)))))
 (.node 8 (.node 4 (.node 2 (.node 1 (.leaf 186354394894982144)
 (.leaf 186378906168803392))
 (.node 1 (.leaf 186403992203475968)
 (.leaf 186406520339218944)))
 (.node 2 (.node 1 (.leaf 186498303679708384)
 (.leaf 186715234258961792))
 (.node 1 (.leaf 186755201619065088)
 (.leaf 186756232681064608))))
 (.node 4 (.node 2 (.node 1 (.leaf 186773651593752864)
 (.leaf 186897316458570880))
 (.node 1 (.leaf 187079278659883776)
 (.leaf 187153760438115968)))
 (.node 2 (.node 1 (.leaf 187289265594931200)
 (.leaf 187334016364821888))
 (.node 1 (.leaf 187431140862333184)
 (.leaf 187452400992364960)))))))))))
 (.node 512 (.node 256 (.node 128 (.node 64 (.node 32 (.node 16 (.node 8 (.node 4 (.node 2 (.node 1 (.leaf 187516546057229888)
 (.leaf 187843841133397248))
 (.node 1 (.leaf 187906723225140864)
 (.leaf 187913237257368992)))
 (.node 2 (.node 1 (.leaf 187920822060800736)
 (.leaf 187954229884981056))
 (.node 1 (.leaf 187989716693685376)
 (.leaf 188034864677826592))))
 (.node 4 (.node 2 (.node 1 (.leaf 188068080527989024)
 (.leaf 188110297145020320))
 (.node 1 (.leaf 188118061863928736)
 (.leaf 188205524187653088)))
 (.node 2 (.node 1 (.leaf 188255500424910368)
 (.leaf 188267927414288992))
 (.node 1 (.leaf 188347971813006080)
 (.leaf 188357645876252576)))))
 (.node 8 (.node 4 (.node 2 (.node 1 (.leaf 188358789891600576)
 (.leaf 188398396992061056))
 (.node 1 (.leaf 188434469917170784)
 (.leaf 188476671890638912)))
 (.node 2 (.node 1 (.leaf 188504403419381856)
 (.leaf 188528845062189504))
 (.node 1 (.leaf 188568623299071584)
 (.leaf 188617937144802560))))
 (.node 4 (.node 2 (.node 1 (.leaf 188635178045479904)
 (.leaf 188664663277299808))
 (.node 1 (.leaf 188711953004763616)
 (.leaf 188888949326637504)))
 (.node 2 (.node 1 (.leaf 188980013309777280)
 (.leaf 188982355515215584))
 (.node 1 (.leaf 189064887177708512)
 (.leaf 189098080110561920))))))
 (.node 16 (.node 8 (.node 4 (.node 2 (.node 1 (.leaf 189204192284036224)
 (.leaf 189214557322106944))
 (.node 1 (.leaf 189437768452931520)
 (.leaf 189452601105402912)))
 (.node 2 (.node 1 (.leaf 189462139452964832)
 (.leaf 189478251012986432))
 (.node 1 (.leaf 189700160902251360)
 (.leaf 189734566668237312))))
 (.node 4 (.node 2 (.node 1 (.leaf 189742200003427840)
 (.leaf 189906691131116960))
 (.node 1 (.leaf 189958119244865280)
 (.leaf 189985734297483808)))
 (.node 2 (.node 1 (.leaf 190037947402428320)
 (.leaf 190063083155352096))
 (.node 1 (.leaf 190088078596860192)
 (.leaf 190202833604407872)))))
 (.node 8 (.node 4 (.node 2 (.node 1 (.leaf 190211027468625184)
 (.leaf 190240913905529312))
 (.node 1 (.leaf 190253677118006176)
 (.leaf 190273658194372864)))
 (.node 2 (.node 1 (.leaf 190306764153923840)
 (.leaf 190415104145307584))
 (.node 1 (.leaf 190422881759670464)
 (.leaf 190467851176577792))))
 (.node 4 (.node 2 (.node 1 (.leaf 190514187639113824)
 (.leaf 190549356729727904))
 (.node 1 (.leaf 190614636521654528)
 (.leaf 190658936058677024)))
 (.node 2 (.node 1 (.leaf 190661516932042208)
 (.leaf 190676074109141088))
 (.node 1 (.leaf 190703819141346112)
 (.leaf 190732341365811744)))))))
 (.node 32 (.node 16 (.node 8 (.node 4 (.node 2 (.node 1 (.leaf 190852004595793696)
 (.leaf 190940717050189600))
 (.node 1 (.leaf 191001061661857024)
 (.leaf 191058685260379392)))
 (.node 2 (.node 1 (.leaf 191089069356609728)
 (.leaf 191121148069492736))
 (.node 1 (.leaf 191161989108854720)
 (.leaf 191180083816744992))))
 (.node 4 (.node 2 (.node 1 (.leaf 191265670160986848)
 (.leaf 191332258780605344))
 (.node 1 (.leaf 191351717277193344)
 (.leaf 191435876427228832)))
 (.node 2 (.node 1 (.leaf 191461301256248704)
 (.leaf 191495650538716544))
 (.node 1 (.leaf 191555217400697536)
 (.leaf 191558172470459616)))))
 (.node 8 (.node 4 (.node 2 (.node 1 (.leaf 191647841666718048)
 (.leaf 191710716437975232))
 (.node 1 (.leaf 191808094166092480)
 (.leaf 191835739671564064)))
 (.node 2 (.node 1 (.leaf 191855851634679136)
 (.leaf 191958001422182720))
 (.node 1 (.leaf 191964096708220128)
 (.leaf 191973285750583936))))
 (.node 4 (.node 2 (.node 1 (.leaf 191973931476946432)
 (.leaf 192002435558915680))
 (.node 1 (.leaf 192010655699988384)
 (.leaf 192103783840173920)))
 (.node 2 (.node 1 (.leaf 192240396047662144)
 (.leaf 192278064458352256))
 (.node 1 (.leaf 192312121733925440)
 (.leaf 192333177669856800))))))
 (.node 16 (.node 8 (.node 4 (.node 2 (.node 1 (.leaf 192373711382704736)
 (.leaf 192434387534605440))
 (.node 1 (.leaf 192558935772286624)
 (.leaf 192562211713521568)))
 (.node 2 (.node 1 (.leaf 192686495587359808)
 (.leaf 192709325966360224))
 (.node 1 (.leaf 192750883082689344)
 (.leaf 192790883782170304))))
 (.node 4 (.node 2 (.node 1 (.leaf 192859069789914496)
 (.leaf 192902969654934432))
 (.node 1 (.leaf 192916334286339008)
 (.leaf 192972179981482752)))
 (.node 2 (.node 1 (.leaf 192991072035272224)
 (.leaf 193140330948519360))
 (.node 1 (.leaf 193160436631704608)
 (.leaf 193220693315268384)))))
 (.node 8 (.node 4 (.node 2 (.node 1 (.leaf 193305483450012640)
 (.leaf 193399655751769856))
 (.node 1 (.leaf 193402044979158656)
 (.leaf 193442532905897920)))
 (.node 2 (.node 1 (.leaf 193453443952735072)
 (.leaf 193495790434257792))
 (.node 1 (.leaf 193509503449664832)
 (.leaf 193595919764115104))))
 (.node 4 (.node 2 (.node 1 (.leaf 193670270185906208)
 (.leaf 193688606447494752))
 (.node 1 (.leaf 193743357155822944)
 (.leaf 193843345946554880)))
 (.node 2 (.node 1 (.leaf 193879719084483936)
 (.leaf 193916683651172064))
 (.node 1 (.leaf 193926866288804192)
 (.leaf 194021503418771424))))))))
 (.node 64 (.node 32 (.node 16 (.node 8 (.node 4 (.node 2 (.node 1 (.leaf 194090236094111136)
 (.leaf 194100975455776128))
 (.node 1 (.leaf 194125114418856768)
 (.leaf 194294947130005600)))
 (.node 2 (.node 1 (.leaf 194398418899960832)
 (.leaf 194485323515635968))
 (.node 1 (.leaf 194531356236918848)
 (.leaf 194552622497337120))))
 (.node 4 (.node 2 (.node 1 (.leaf 194573588258929344)
 (.leaf 194594796015020160))
 (.node 1 (.leaf 194708298357112704)
 (.leaf 194728222630275104)))
 (.node 2 (.node 1 (.leaf 194786618738296000)
 (.leaf 194866581982980960))
 (.node 1 (.leaf 194932108780572384)
 (.leaf 195087206540257056)))))
 (.node 8 (.node 4 (.node 2 (.node 1 (.leaf 195097582326022592)
 (.leaf 195100022216513440))
 (.node 1 (.leaf 195153892050839904)
 (.leaf 195188431946146080)))
 (.node 2 (.node 1 (.leaf 195200739316870912)
 (.leaf 195295228156040288))
 (.node 1 (.leaf 195304486536591072)
 (.leaf 195346112307037312))))
 (.node 4 (.node 2 (.node 1 (.leaf 195371684897099040)
 (.leaf 195387574098931328))
 (.node 1 (.leaf 195415128659334656)
 (.leaf 195484523972352544)))
 (.node 2 (.node 1 (.leaf 195486969033830272)
 (.leaf 195525109693067520))
 (.node 1 (.leaf 195692046856401536)
 (.leaf 195767555538942752))))))
 (.node 16 (.node 8 (.node 4 (.node 2 (.node 1 (.leaf 195774326022033888)
 (.leaf 195792143794149472))
 (.node 1 (.leaf 195795899867924192)
 (.leaf 195866382455206368)))
 (.node 2 (.node 1 (.leaf 196206574246908160)
 (.leaf 196220906978668928))
 (.node 1 (.leaf 196291816674024352)
 (.leaf 196312069695501120))))
 (.node 4 (.node 2 (.node 1 (.leaf 196374157203923200)
 (.leaf 196443887190018976))
 (.node 1 (.leaf 196527398908810848)
 (.leaf 196529378952646048)))
 (.node 2 (.node 1 (.leaf 196537007487770624)
 (.leaf 196565840723143616))
 (.node 1 (.leaf 196684296522964096)
 (.leaf 196742628335157344)))))
 (.node 8 (.node 4 (.node 2 (.node 1 (.leaf 196924113731198016)
 (.leaf 196971409571349472))
 (.node 1 (.leaf 196974183214979968)
 (.leaf 196982407653476704)))
 (.node 2 (.node 1 (.leaf 197075534980910496)
 (.leaf 197079433046399968))
 (.node 1 (.leaf 197203779029895776)
 (.leaf 197238274930566240))))
 (.node 4 (.node 2 (.node 1 (.leaf 197303784449332224)
 (.leaf 197365617601907232))
 (.node 1 (.leaf 197486710550356544)
 (.leaf 197596444063075744)))
 (.node 2 (.node 1 (.leaf 197605814648309952)
 (.leaf 197663598899864992))
 (.node 1 (.leaf 197768108862067200)
 (.leaf 197832821589892352)))))))
 (.node 32 (.node 16 (.node 8 (.node 4 (.node 2 (.node 1 (.leaf 197873565293900640)
 (.leaf 197961895404876096))
 (.node 1 (.leaf 197975072146644032)
 (.leaf 198085841974651104)))
 (.node 2 (.node 1 (.leaf 198091580255315168)
 (.leaf 198176520088214400))
 (.node 1 (.leaf 198210403921937440)
 (.leaf 198216752888861664))))
 (.node 4 (.node 2 (.node 1 (.leaf 198233847858426240)
 (.leaf 198235958320613216))
 (.node 1 (.leaf 198344181747404192)
 (.leaf 198346695975833632)))
 (.node 2 (.node 1 (.leaf 198411396473609280)
 (.leaf 198436530377369728))
 (.node 1 (.leaf 198484940152200096)
 (.leaf 198579589768101888)))))
 (.node 8 (.node 4 (.node 2 (.node 1 (.leaf 198642096659509536)
 (.leaf 198731986060696096))
 (.node 1 (.leaf 198768352873984160)
 (.leaf 198810621586145280)))
 (.node 2 (.node 1 (.leaf 198840015322854720)
 (.leaf 198883663372282784))
 (.node 1 (.leaf 199116759302176512)
 (.leaf 199132658895559936))))
 (.node 4 (.node 2 (.node 1 (.leaf 199165752365521472)
 (.leaf 199174934106996288))
 (.node 1 (.leaf 199231294164258592)
 (.leaf 199319175326652160)))
 (.node 2 (.node 1 (.leaf 199357049139629376)
 (.leaf 199366839305428704))
 (.node 1 (.leaf 199374917728542976)
 (.leaf 199491517097012160))))))
 (.node 16 (.node 8 (.node 4 (.node 2 (.node 1 (.leaf 199494567174340672)
 (.leaf 199518528712398208))
 (.node 1 (.leaf 199551302430183456)
 (.leaf 199593200020947744)))
 (.node 2 (.node 1 (.leaf 199666882464643808)
 (.leaf 199670658759837088))
 (.node 1 (.leaf 199694671380459904)
 (.leaf 199792443318176928))))
 (.node 4 (.node 2 (.node 1 (.leaf 199901480436378368)
 (.leaf 200077121175197472))
 (.node 1 (.leaf 200105595500064896)
 (.leaf 200198126748760832)))
 (.node 2 (.node 1 (.leaf 200245915448099232)
 (.leaf 200308062105267264))
 (.node 1 (.leaf 200315072808866624)
 (.leaf 200346979059027520)))))
 (.node 8 (.node 4 (.node 2 (.node 1 (.leaf 200454483938944288)
 (.leaf 200590520111683360))
 (.node 1 (.leaf 200702825922246976)
 (.leaf 200762656120120832)))
 (.node 2 (.node 1 (.leaf 200895586675831744)
 (.leaf 201002355003521696))
 (.node 1 (.leaf 201125994570961856)
 (.leaf 201166895086268800))))
 (.node 4 (.node 2 (.node 1 (.leaf 201173152861719136)
 (.leaf 201268803213798208))
 (.node 1 (.leaf 201287557902155392)
 (.leaf 201354382049338976)))
 (.node 2 (.node 1 (.leaf 201375779945396768)
 (.leaf 201445522647050528))
 (.node 1 (.leaf 201536211968181376)
 (.leaf 201812770762607712)))))))))
 (.node 128 (.node 64 (.node 32 (.node 16 (.node 8 (.node 4 (.node 2 (.node 1 (.leaf 201921501626282464)
 (.leaf 201928113539842528))
 (.node 1 (.leaf 202083298014087104)
 (.leaf 202170619137252064)))
 (.node 2 (.node 1 (.leaf 202220151215125856)
 (.leaf 202343700030972448))
 (.node 1 (.leaf 202356948827908768)
 (.leaf 202406898098029792))))
 (.node 4 (.node 2 (.node 1 (.leaf 202548025164732416)
 (.leaf 202554138026284608))
 (.node 1 (.leaf 202638063985755296)
 (.leaf 202666518863019360)))
 (.node 2 (.node 1 (.leaf 202672078841547680)
 (.leaf 202672126697557216))
 (.node 1 (.leaf 202685097066044128)
 (.leaf 202692320298974336)))))
 (.node 8 (.node 4 (.node 2 (.node 1 (.leaf 202751481261755744)
 (.leaf 202794970317530944))
 (.node 1 (.leaf 202831591774426720)
 (.leaf 202842003175150144)))
 (.node 2 (.node 1 (.leaf 202919561828728960)
 (.leaf 203082781354086368))
 (.node 1 (.leaf 203092278682296352)
 (.leaf 203124967985284224))))
 (.node 4 (.node 2 (.node 1 (.leaf 203133239249213600)
 (.leaf 203272496957566336))
 (.node 1 (.leaf 203344441931802304)
 (.leaf 203405640751123520)))
 (.node 2 (.node 1 (.leaf 203438296480715936)
 (.leaf 203683411158032032))
 (.node 1 (.leaf 203879516368480256)
 (.leaf 203882402612189760))))))
 (.node 16 (.node 8 (.node 4 (.node 2 (.node 1 (.leaf 203882628895529824)
 (.leaf 203969949878617920))
 (.node 1 (.leaf 204085880551344512)
 (.leaf 204133766526248672)))
 (.node 2 (.node 1 (.leaf 204271535623316512)
 (.leaf 204360100786752480))
 (.node 1 (.leaf 204391043136392480)
 (.leaf 204510884936371328))))
 (.node 4 (.node 2 (.node 1 (.leaf 204553664215110496)
 (.leaf 204627925460324224))
 (.node 1 (.leaf 204652982220165728)
 (.leaf 204727186259961248)))
 (.node 2 (.node 1 (.leaf 204845308092949472)
 (.leaf 204851036695672512))
 (.node 1 (.leaf 205062935545735776)
 (.leaf 205081467047182816)))))
 (.node 8 (.node 4 (.node 2 (.node 1 (.leaf 205122579023549440)
 (.leaf 205145693616660608))
 (.node 1 (.leaf 205157788723896256)
 (.leaf 205312953474023648)))
 (.node 2 (.node 1 (.leaf 205586729297271328)
 (.leaf 205747490459285504))
 (.node 1 (.leaf 205829545672130048)
 (.leaf 205916954508795328))))
 (.node 4 (.node 2 (.node 1 (.leaf 206152231936796160)
 (.leaf 206163632365982592))
 (.node 1 (.leaf 206188938848185792)
 (.leaf 206319809296802912)))
 (.node 2 (.node 1 (.leaf 206410794361882816)
 (.leaf 206434980982223264))
 (.node 1 (.leaf 206448562324396448)
 (.leaf 206482869832608544)))))))
 (.node 32 (.node 16 (.node 8 (.node 4 (.node 2 (.node 1 (.leaf 206495460222741088)
 (.leaf 206536257514318720))
 (.node 1 (.leaf 206598525708154720)
 (.leaf 206600649411494528)))
 (.node 2 (.node 1 (.leaf 206700270070072576)
 (.leaf 206711591711889728))
 (.node 1 (.leaf 206807751875775488)
 (.leaf 206813699281373600))))
 (.node 4 (.node 2 (.node 1 (.leaf 206875666125349440)
 (.leaf 206902855702877088))
 (.node 1 (.leaf 207074073007242240)
 (.leaf 207104914983595840)))
 (.node 2 (.node 1 (.leaf 207123570023853056)
 (.leaf 207240810661151680))
 (.node 1 (.leaf 207267697606656896)
 (.leaf 207339658446491264)))))
 (.node 8 (.node 4 (.node 2 (.node 1 (.leaf 207372967265193312)
 (.leaf 207378513719047296))
 (.node 1 (.leaf 207507418513346912)
 (.leaf 207508236653584608)))
 (.node 2 (.node 1 (.leaf 207601698647545760)
 (.leaf 207665869967005664))
 (.node 1 (.leaf 207688784598010656)
 (.leaf 207825939925509696))))
 (.node 4 (.node 2 (.node 1 (.leaf 207936135130514848)
 (.leaf 207967853536145472))
 (.node 1 (.leaf 208009425231325600)
 (.leaf 208113645952905024)))
 (.node 2 (.node 1 (.leaf 208135938744674112)
 (.leaf 208180702791085888))
 (.node 1 (.leaf 208485664491838112)
 (.leaf 208530416399258496))))))
 (.node 16 (.node 8 (.node 4 (.node 2 (.node 1 (.leaf 208545666507271488)
 (.leaf 208548196423399264))
 (.node 1 (.leaf 208559302166728256)
 (.leaf 208575477782943744)))
 (.node 2 (.node 1 (.leaf 208588393687726208)
 (.leaf 208726759045566784))
 (.node 1 (.leaf 208751116791102688)
 (.leaf 208878589885328448))))
 (.node 4 (.node 2 (.node 1 (.leaf 208981748338406112)
 (.leaf 209047736436546400))
 (.node 1 (.leaf 209158086454694752)
 (.leaf 209202430383095488)))
 (.node 2 (.node 1 (.leaf 209258269441644704)
 (.leaf 209286389166265056))
 (.node 1 (.leaf 209318970064928832)
 (.leaf 209449896614967840)))))
 (.node 8 (.node 4 (.node 2 (.node 1 (.leaf 209451968889241184)
 (.leaf 209585239303953120))
 (.node 1 (.leaf 209618541677056352)
 (.leaf 209663186827036928)))
 (.node 2 (.node 1 (.leaf 209689676402632768)
 (.leaf 209702713365957664))
 (.node 1 (.leaf 209852604078241920)
 (.leaf 209906517031594688))))
 (.node 4 (.node 2 (.node 1 (.leaf 210179353879035456)
 (.leaf 210358599776027552))
 (.node 1 (.leaf 210411440068632096)
 (.leaf 210414352690592864)))
 (.node 2 (.node 1 (.leaf 210471630986815584)
 (.leaf 210515011677197504))
 (.node 1 (.leaf 210712168469821472)
 (.leaf 210841674661439648))))))))
 (.node 64 (.node 32 (.node 16 (.node 8 (.node 4 (.node 2 (.node 1 (.leaf 211049006781526464)
 (.leaf 211069124737687072))
 (.node 1 (.leaf 211082444456578624)
 (.leaf 211181343340345664)))
 (.node 2 (.node 1 (.leaf 211313194710992224)
 (.leaf 211387854409730432))
 (.node 1 (.leaf 211658873240619168)
 (.leaf 211748401650384864))))
 (.node 4 (.node 2 (.node 1 (.leaf 211794532100770112)
 (.leaf 211796217624401344))
 (.node 1 (.leaf 211837305114342624)
 (.leaf 211900720433961952)))
 (.node 2 (.node 1 (.leaf 211983421510814400)
 (.leaf 212011927345668128))
 (.node 1 (.leaf 212065357126490112)
 (.leaf 212127084282134208)))))
 (.node 8 (.node 4 (.node 2 (.node 1 (.leaf 212174737824154144)
 (.leaf 212374391136997792))
 (.node 1 (.leaf 212434376554102944)
 (.leaf 212449873014485184)))
 (.node 2 (.node 1 (.leaf 212579370861232096)
 (.leaf 212587589571538976))
 (.node 1 (.leaf 212614285008382240)
 (.leaf 212732915281222592))))
 (.node 4 (.node 2 (.node 1 (.leaf 212739895195250688)
 (.leaf 212740268480096864))
 (.node 1 (.leaf 212780691547264288)
 (.leaf 212809926244730752)))
 (.node 2 (.node 1 (.leaf 212814695849565312)
 (.leaf 212846273099116832))
 (.node 1 (.leaf 212955158083326848)
 (.leaf 213013726853416960))))))
 (.node 16 (.node 8 (.node 4 (.node 2 (.node 1 (.leaf 213038633743866560)
 (.leaf 213065107107816640))
 (.node 1 (.leaf 213088291764923360)
 (.leaf 213386951232354720)))
 (.node 2 (.node 1 (.leaf 213403540271498368)
 (.leaf 213498054177504288))
 (.node 1 (.leaf 213596485955015232)
 (.leaf 213619929798267424))))
 (.node 4 (.node 2 (.node 1 (.leaf 213714579859936448)
 (.leaf 213789005161905696))
 (.node 1 (.leaf 213820732167833248)
 (.leaf 213858473460516544)))
 (.node 2 (.node 1 (.leaf 214223371906373184)
 (.leaf 214311082669688832))
 (.node 1 (.leaf 214367804625260288)
 (.leaf 214402260351897312)))))
 (.node 8 (.node 4 (.node 2 (.node 1 (.leaf 214515341492693056)
 (.leaf 214667469459437856))
 (.node 1 (.leaf 214742635288536672)
 (.leaf 214818164850755808)))
 (.node 2 (.node 1 (.leaf 214883140926876320)
 (.leaf 214904725140593792))
 (.node 1 (.leaf 215036857424764800)
 (.leaf 215098891905779200))))
 (.node 4 (.node 2 (.node 1 (.leaf 215108264749718336)
 (.leaf 215167473249982848))
 (.node 1 (.leaf 215188268178016544)
 (.leaf 215224762862945184)))
 (.node 2 (.node 1 (.leaf 215295621634235328)
 (.leaf 215355249481617056))
 (.node 1 (.leaf 215360042769428768)
 (.leaf 215388458507254016)))))))
 (.node 32 (.node 16 (.node 8 (.node 4 (.node 2 (.node 1 (.leaf 215422562692267040)
 (.leaf 215431425620363008))
 (.node 1 (.leaf 215545129025975840)
 (.leaf 215574296039257216)))
 (.node 2 (.node 1 (.leaf 215574694380848288)
 (.leaf 215631729688875904))
 (.node 1 (.leaf 215697567616694176)
 (.leaf 215745882583171584))))
 (.node 4 (.node 2 (.node 1 (.leaf 215792134703155456)
 (.leaf 215837314232538976))
 (.node 1 (.leaf 216065376568256672)
 (.leaf 216108842006047872)))
 (.node 2 (.node 1 (.leaf 216198436213440544)
 (.leaf 216232684526713344))
 (.node 1 (.leaf 216304722510697792)
 (.leaf 216378090504690624)))))
 (.node 8 (.node 4 (.node 2 (.node 1 (.leaf 216384084147871744)
 (.leaf 216391740518122464))
 (.node 1 (.leaf 216448870920237408)
 (.leaf 216482607561007456)))
 (.node 2 (.node 1 (.leaf 216780827568006208)
 (.leaf 216936897757016736))
 (.node 1 (.leaf 216944820365332960)
 (.leaf 216948885492244672))))
 (.node 4 (.node 2 (.node 1 (.leaf 216988036091633600)
 (.leaf 217033002834459776))
 (.node 1 (.leaf 217141840965201856)
 (.leaf 217246157431756096)))
 (.node 2 (.node 1 (.leaf 217336946804230400)
 (.leaf 217338838799460000))
 (.node 1 (.leaf 217351495545451008)
 (.leaf 217384884136930176))))))
 (.node 16 (.node 8 (.node 4 (.node 2 (.node 1 (.leaf 217393595119224512)
 (.leaf 217444606791406784))
 (.node 1 (.leaf 217444606791406848)
 (.leaf 217444606791406880)))
 (.node 2 (.node 1 (.leaf 217547698547501088)
 (.leaf 217684716600231744))
 (.node 1 (.leaf 217784821208979456)
 (.leaf 217804961012732512))))
 (.node 4 (.node 2 (.node 1 (.leaf 217815605764606688)
 (.leaf 217825194105208896))
 (.node 1 (.leaf 217848254966726304)
 (.leaf 217953618570531008)))
 (.node 2 (.node 1 (.leaf 217984665774834752)
 (.leaf 218029855878396352))
 (.node 1 (.leaf 218074847986896192)
 (.leaf 218417970244572928)))))
 (.node 8 (.node 4 (.node 2 (.node 1 (.leaf 218438778618985280)
 (.leaf 218455905092645504))
 (.node 1 (.leaf 218588556568196416)
 (.leaf 218589104477865728)))
 (.node 2 (.node 1 (.leaf 218767401045975680)
 (.leaf 218868129029408896))
 (.node 1 (.leaf 218896262650379296)
 (.leaf 218914162024157760))))
 (.node 4 (.node 2 (.node 1 (.leaf 218943176119706080)
 (.leaf 218969549391997760))
 (.node 1 (.leaf 218985890827980416)
 (.leaf 219139951000428032)))
 (.node 2 (.node 1 (.leaf 219147649662925408)
 (.leaf 219306475204931008))
 (.node 1 (.leaf 219321453034699744)
 (.leaf 219323258430549632))))))))))
 (.node 256 (.node 128 (.node 64 (.node 32 (.node 16 (.node 8 (.node 4 (.node 2 (.node 1 (.leaf 219368844457176128)
 (.leaf 219380806895965472))
 (.node 1 (.leaf 219409227310424640)
 (.leaf 219572444554043744)))
 (.node 2 (.node 1 (.leaf 219619175785138112)
 (.leaf 219651271184664736))
 (.node 1 (.leaf 219717772573049952)
 (.leaf 219727429848821920))))
 (.node 4 (.node 2 (.node 1 (.leaf 219931576596453536)
 (.leaf 220093306491314688))
 (.node 1 (.leaf 220125263416980512)
 (.leaf 220201332511139552)))
 (.node 2 (.node 1 (.leaf 220223680285108800)
 (.leaf 220277532559675264))
 (.node 1 (.leaf 220340918540703328)
 (.leaf 220355270218623808)))))
 (.node 8 (.node 4 (.node 2 (.node 1 (.leaf 220444701004469632)
 (.leaf 220488566218852480))
 (.node 1 (.leaf 220665207199410880)
 (.leaf 220838247997922400)))
 (.node 2 (.node 1 (.leaf 220873497137100416)
 (.leaf 221035185161090208))
 (.node 1 (.leaf 221132361722150592)
 (.leaf 221221027428302432))))
 (.node 4 (.node 2 (.node 1 (.leaf 221394993139136480)
 (.leaf 221444145729184640))
 (.node 1 (.leaf 221481637371543136)
 (.leaf 221608353777533952)))
 (.node 2 (.node 1 (.leaf 221665905892607040)
 (.leaf 221733300635918496))
 (.node 1 (.leaf 221837688394073280)
 (.leaf 222037687925517632))))))
 (.node 16 (.node 8 (.node 4 (.node 2 (.node 1 (.leaf 222063186528801728)
 (.leaf 222078370348874176))
 (.node 1 (.leaf 222103027127141152)
 (.leaf 222131672024275392)))
 (.node 2 (.node 1 (.leaf 222139713206735296)
 (.leaf 222164450126177600))
 (.node 1 (.leaf 222169792440474048)
 (.leaf 222239682613145408))))
 (.node 4 (.node 2 (.node 1 (.leaf 222262471141207584)
 (.leaf 222313926029304352))
 (.node 1 (.leaf 222364646917485984)
 (.leaf 222400831199190752)))
 (.node 2 (.node 1 (.leaf 222414432016916256)
 (.leaf 222742404562216608))
 (.node 1 (.leaf 222804031845112096)
 (.leaf 222807592057889952)))))
 (.node 8 (.node 4 (.node 2 (.node 1 (.leaf 222843273505682240)
 (.leaf 222935676871734176))
 (.node 1 (.leaf 223003101945793408)
 (.leaf 223181190203619232)))
 (.node 2 (.node 1 (.leaf 223281344971795456)
 (.leaf 223363993714563328))
 (.node 1 (.leaf 223383863887389920)
 (.leaf 223387411884165632))))
 (.node 4 (.node 2 (.node 1 (.leaf 223440899851121952)
 (.leaf 223536518338956032))
 (.node 1 (.leaf 223546644270246912)
 (.leaf 223566428758437728)))
 (.node 2 (.node 1 (.leaf 223713423390825536)
 (.leaf 223937144795473760))
 (.node 1 (.leaf 223939496089874720)
 (.leaf 224034408510924768)))))))
 (.node 32 (.node 16 (.node 8 (.node 4 (.node 2 (.node 1 (.leaf 224057023460650464)
 (.leaf 224057215454733920))
 (.node 1 (.leaf 224208862504752352)
 (.leaf 224242756962013536)))
 (.node 2 (.node 1 (.leaf 224380356259411296)
 (.leaf 224401613202052512))
 (.node 1 (.leaf 224518432634306688)
 (.leaf 224551790317336192))))
 (.node 4 (.node 2 (.node 1 (.leaf 224572767410432384)
 (.leaf 224572914425118336))
 (.node 1 (.leaf 224597827815855968)
 (.leaf 224622656354862272)))
 (.node 2 (.node 1 (.leaf 224784380267812320)
 (.leaf 224834090000643040))
 (.node 1 (.leaf 224884387474746400)
 (.leaf 224980348008209440)))))
 (.node 8 (.node 4 (.node 2 (.node 1 (.leaf 224992032812549376)
 (.leaf 225040753198470784))
 (.node 1 (.leaf 225070719010967904)
 (.leaf 225127872962649632)))
 (.node 2 (.node 1 (.leaf 225193117360033984)
 (.leaf 225214935710553440))
 (.node 1 (.leaf 225257763320291104)
 (.leaf 225379600520793792))))
 (.node 4 (.node 2 (.node 1 (.leaf 225412868349495360)
 (.leaf 225462299590288832))
 (.node 1 (.leaf 225480637013752832)
 (.leaf 225603599043460736)))
 (.node 2 (.node 1 (.leaf 225608857977561504)
 (.leaf 225639311454082816))
 (.node 1 (.leaf 225658609760595616)
 (.leaf 225736694649221664))))))
 (.node 16 (.node 8 (.node 4 (.node 2 (.node 1 (.leaf 225768698062483424)
 (.leaf 225803952511714816))
 (.node 1 (.leaf 225811130063764416)
 (.leaf 225828504276791552)))
 (.node 2 (.node 1 (.leaf 225867636784767904)
 (.leaf 225934631601486592))
 (.node 1 (.leaf 225947306605600096)
 (.leaf 225961302995030944))))
 (.node 4 (.node 2 (.node 1 (.leaf 226042545703829280)
 (.leaf 226074450146201120))
 (.node 1 (.leaf 226093818836344992)
 (.leaf 226220273732658432)))
 (.node 2 (.node 1 (.leaf 226237375858147264)
 (.leaf 226388843901616800))
 (.node 1 (.leaf 226488105155729152)
 (.leaf 226730312161701056)))))
 (.node 8 (.node 4 (.node 2 (.node 1 (.leaf 226744596043228672)
 (.leaf 226756214733597696))
 (.node 1 (.leaf 226981184330056448)
 (.leaf 226997045014647744)))
 (.node 2 (.node 1 (.leaf 226998077208848896)
 (.leaf 227036947990026304))
 (.node 1 (.leaf 227075648291310912)
 (.leaf 227412214068537152))))
 (.node 4 (.node 2 (.node 1 (.leaf 228053481157479840)
 (.leaf 228150117399029984))
 (.node 1 (.leaf 228336418397206016)
 (.leaf 228439695689598112)))
 (.node 2 (.node 1 (.leaf 228596268363210240)
 (.leaf 228684148485243264))
 (.node 1 (.leaf 228690222538440800)
 (.leaf 228716991618696288))))))))
 (.node 64 (.node 32 (.node 16 (.node 8 (.node 4 (.node 2 (.node 1 (.leaf 228719503504948224)
 (.leaf 228765103653084608))
 (.node 1 (.leaf 229135543298157856)
 (.leaf 229147875250920864)))
 (.node 2 (.node 1 (.leaf 229177205116445696)
 (.leaf 229220071630523264))
 (.node 1 (.leaf 229228530724676000)
 (.leaf 229496202705843168))))
 (.node 4 (.node 2 (.node 1 (.leaf 229509361960137440)
 (.leaf 229570266370603712))
 (.node 1 (.leaf 229579576795791232)
 (.leaf 229742081852488928)))
 (.node 2 (.node 1 (.leaf 229777278634938016)
 (.leaf 229785438806957152))
 (.node 1 (.leaf 229888449152833216)
 (.leaf 229960129223416256)))))
 (.node 8 (.node 4 (.node 2 (.node 1 (.leaf 229966543757315808)
 (.leaf 230095824650965792))
 (.node 1 (.leaf 230100926639930880)
 (.leaf 230245983447550720)))
 (.node 2 (.node 1 (.leaf 230303087674133472)
 (.leaf 230356224966137920))
 (.node 1 (.leaf 230394816036006848)
 (.leaf 230436018355580896))))
 (.node 4 (.node 2 (.node 1 (.leaf 230504933171251840)
 (.leaf 230657106900301856))
 (.node 1 (.leaf 230734004108032960)
 (.leaf 230738030659319264)))
 (.node 2 (.node 1 (.leaf 230759654457096928)
 (.leaf 230767539538473536))
 (.node 1 (.leaf 230847635743098656)
 (.leaf 230938939532925440))))))
 (.node 16 (.node 8 (.node 4 (.node 2 (.node 1 (.leaf 231049565755998912)
 (.leaf 231274392383568000))
 (.node 1 (.leaf 231311276221034784)
 (.leaf 231763685752693280)))
 (.node 2 (.node 1 (.leaf 231859699842266208)
 (.leaf 231883698009849248))
 (.node 1 (.leaf 232079147555787616)
 (.leaf 232190763328686208))))
 (.node 4 (.node 2 (.node 1 (.leaf 232204605517568160)
 (.leaf 232244834750183392))
 (.node 1 (.leaf 232277994793805440)
 (.leaf 232515474278488640)))
 (.node 2 (.node 1 (.leaf 232527727386412320)
 (.leaf 232732454460578848))
 (.node 1 (.leaf 232758425080923808)
 (.leaf 232830542844240960)))))
 (.node 8 (.node 4 (.node 2 (.node 1 (.leaf 233024302230100064)
 (.leaf 233080918678039104))
 (.node 1 (.leaf 233205218129518656)
 (.leaf 233206013416960832)))
 (.node 2 (.node 1 (.leaf 233223754507362432)
 (.leaf 233227307081399872))
 (.node 1 (.leaf 233241762818027680)
 (.leaf 233291815081384544))))
 (.node 4 (.node 2 (.node 1 (.leaf 233294701242950368)
 (.leaf 233340264431251712))
 (.node 1 (.leaf 233480172942091648)
 (.leaf 233558766082031104)))
 (.node 2 (.node 1 (.leaf 233601329192360896)
 (.leaf 233699973000864640))
 (.node 1 (.leaf 233701144417979904)
 (.leaf 233745178007525120)))))))
 (.node 32 (.node 16 (.node 8 (.node 4 (.node 2 (.node 1 (.leaf 233756068983054432)
 (.leaf 233790200627504032))
 (.node 1 (.leaf 233809644092175488)
 (.leaf 233884228258538048)))
 (.node 2 (.node 1 (.leaf 233994980282858720)
 (.leaf 234047534806463776))
 (.node 1 (.leaf 234118400506209088)
 (.leaf 234280174206919904))))
 (.node 4 (.node 2 (.node 1 (.leaf 234343877845845408)
 (.leaf 234730233084277088))
 (.node 1 (.leaf 234986584632879840)
 (.leaf 235070773426477216)))
 (.node 2 (.node 1 (.leaf 235274829487964064)
 (.leaf 235282058202699136))
 (.node 1 (.leaf 235401342812329792)
 (.leaf 235442006394711104)))))
 (.node 8 (.node 4 (.node 2 (.node 1 (.leaf 235463473553927264)
 (.leaf 235806003425270880))
 (.node 1 (.leaf 235829006458694784)
 (.leaf 235874595888307328)))
 (.node 2 (.node 1 (.leaf 235921054380182720)
 (.leaf 235922953611404064))
 (.node 1 (.leaf 235966519546023744)
 (.leaf 236017714004848128))))
 (.node 4 (.node 2 (.node 1 (.leaf 236077386070829024)
 (.leaf 236134998108971040))
 (.node 1 (.leaf 236174480316737920)
 (.leaf 236192799386590752)))
 (.node 2 (.node 1 (.leaf 236319940054822272)
 (.leaf 236444998293760832))
 (.node 1 (.leaf 236520067582973504)
 (.leaf 236635834612133632))))))
 (.node 16 (.node 8 (.node 4 (.node 2 (.node 1 (.leaf 236844580100982752)
 (.leaf 236847117310755616))
 (.node 1 (.leaf 236871313031790976)
 (.leaf 236889521434324416)))
 (.node 2 (.node 1 (.leaf 237012969804126304)
 (.leaf 237222546333587552))
 (.node 1 (.leaf 237375317841972704)
 (.leaf 237478769821264320))))
 (.node 4 (.node 2 (.node 1 (.leaf 237661131100699968)
 (.leaf 237705930236310912))
 (.node 1 (.leaf 237786185575879104)
 (.leaf 238080674199686784)))
 (.node 2 (.node 1 (.leaf 238158745895963648)
 (.leaf 238404746387973536))
 (.node 1 (.leaf 238438140613333632)
 (.leaf 238595478054875552)))))
 (.node 8 (.node 4 (.node 2 (.node 1 (.leaf 238848394793392480)
 (.leaf 238962479228009568))
 (.node 1 (.leaf 238967423197817920)
 (.leaf 239248522414187616)))
 (.node 2 (.node 1 (.leaf 239268572416350368)
 (.leaf 239314307660216544))
 (.node 1 (.leaf 239326693535615008)
 (.leaf 239528679873126048))))
 (.node 4 (.node 2 (.node 1 (.leaf 239645132484419936)
 (.leaf 239703019640856704))
 (.node 1 (.leaf 239732813492159200)
 (.leaf 239816892894629472)))
 (.node 2 (.node 1 (.leaf 239915156257386144)
 (.leaf 240257017560218144))
 (.node 1 (.leaf 240416321235103680)
 (.leaf 240536067347670432)))))))))
 (.node 128 (.node 64 (.node 32 (.node 16 (.node 8 (.node 4 (.node 2 (.node 1 (.leaf 240543058581801600)
 (.leaf 240544858214966144))
 (.node 1 (.leaf 240569191705379456)
 (.leaf 240580028419693696)))
 (.node 2 (.node 1 (.leaf 240586189806070048)
 (.leaf 240600276717824736))
 (.node 1 (.leaf 240670328684941984)
 (.leaf 240677441924682816))))
 (.node 4 (.node 2 (.node 1 (.leaf 240748996090662144)
 (.leaf 240753647901723424))
 (.node 1 (.leaf 240823607289037632)
 (.leaf 240846491243581760)))
 (.node 2 (.node 1 (.leaf 240907701710198464)
 (.leaf 241003128204236096))
 (.node 1 (.leaf 241032242966071648)
 (.leaf 241165745002544864)))))
 (.node 8 (.node 4 (.node 2 (.node 1 (.leaf 241447089893134048)
 (.leaf 241487458720843360))
 (.node 1 (.leaf 241507890468816128)
 (.leaf 241534396921340256)))
 (.node 2 (.node 1 (.leaf 241593377897749312)
 (.leaf 241745965822688160))
 (.node 1 (.leaf 242107756627035456)
 (.leaf 242223807491338208))))
 (.node 4 (.node 2 (.node 1 (.leaf 242313287676658880)
 (.leaf 242329922754867040))
 (.node 1 (.leaf 242367974579365760)
 (.leaf 242375322614724512)))
 (.node 2 (.node 1 (.leaf 242388795603197984)
 (.leaf 242792566679885344))
 (.node 1 (.leaf 242852114877838912)
 (.leaf 242987583476534432))))))
 (.node 16 (.node 8 (.node 4 (.node 2 (.node 1 (.leaf 243114772844431520)
 (.leaf 243342679360231136))
 (.node 1 (.leaf 243467925133200384)
 (.leaf 243500034326216480)))
 (.node 2 (.node 1 (.leaf 243785769066112192)
 (.leaf 243813895789967776))
 (.node 1 (.leaf 243814155745818848)
 (.leaf 243899789996239168))))
 (.node 4 (.node 2 (.node 1 (.leaf 243958223003460640)
 (.leaf 244183836610431456))
 (.node 1 (.leaf 244450022354898016)
 (.leaf 244458212707182400)))
 (.node 2 (.node 1 (.leaf 244541650821294368)
 (.leaf 244667351840341856))
 (.node 1 (.leaf 244726645409908608)
 (.leaf 244848453023014272)))))
 (.node 8 (.node 4 (.node 2 (.node 1 (.leaf 244854979464924992)
 (.leaf 244976848940961376))
 (.node 1 (.leaf 245066683402382464)
 (.leaf 245189324882905216)))
 (.node 2 (.node 1 (.leaf 245425640609866304)
 (.leaf 245515265229447552))
 (.node 1 (.leaf 245554207137298368)
 (.leaf 245683089842523360))))
 (.node 4 (.node 2 (.node 1 (.leaf 245829527745235392)
 (.leaf 246278476516480608))
 (.node 1 (.leaf 246280164420146272)
 (.leaf 246381988857175008)))
 (.node 2 (.node 1 (.leaf 246453526990542944)
 (.leaf 246480880853318624))
 (.node 1 (.leaf 246587707192982944)
 (.leaf 246704199560612448)))))))
 (.node 32 (.node 16 (.node 8 (.node 4 (.node 2 (.node 1 (.leaf 246711682321560384)
 (.leaf 246742723150256288))
 (.node 1 (.leaf 246775442890357792)
 (.leaf 246781252755472480)))
 (.node 2 (.node 1 (.leaf 246786409801904480)
 (.leaf 246834024166531584))
 (.node 1 (.leaf 247329598224755840)
 (.leaf 247406965304347616))))
 (.node 4 (.node 2 (.node 1 (.leaf 247530741414282016)
 (.leaf 247531485651183680))
 (.node 1 (.leaf 247744112393743488)
 (.leaf 247834129743642208)))
 (.node 2 (.node 1 (.leaf 248050716837900800)
 (.leaf 248133503108319168))
 (.node 1 (.leaf 248266256627544256)
 (.leaf 248274726124887808)))))
 (.node 8 (.node 4 (.node 2 (.node 1 (.leaf 248568593218888480)
 (.leaf 248646038573574432))
 (.node 1 (.leaf 248654709004094752)
 (.leaf 248660925893233248)))
 (.node 2 (.node 1 (.leaf 248681462907733984)
 (.leaf 248791766443951552))
 (.node 1 (.leaf 248873138420904096)
 (.leaf 248959603974480416))))
 (.node 4 (.node 2 (.node 1 (.leaf 249304152540923712)
 (.leaf 249399190989500576))
 (.node 1 (.leaf 249487558560404384)
 (.leaf 249629076490875392)))
 (.node 2 (.node 1 (.leaf 249633090836611008)
 (.leaf 249702933623200448))
 (.node 1 (.leaf 249707043213402912)
 (.leaf 250181805609870496))))))
 (.node 16 (.node 8 (.node 4 (.node 2 (.node 1 (.leaf 250365768597043200)
 (.leaf 250494239240807552))
 (.node 1 (.leaf 250642614912765120)
 (.leaf 250658915835949248)))
 (.node 2 (.node 1 (.leaf 250668941740801248)
 (.leaf 250956897452740256))
 (.node 1 (.leaf 251033764694241088)
 (.leaf 251119601643121824))))
 (.node 4 (.node 2 (.node 1 (.leaf 251211205019320288)
 (.leaf 251339554260389440))
 (.node 1 (.leaf 251360719582526752)
 (.leaf 251416931487539904)))
 (.node 2 (.node 1 (.leaf 251568535532550144)
 (.leaf 251647215860844096))
 (.node 1 (.leaf 251721457184336640)
 (.leaf 252018648808944192)))))
 (.node 8 (.node 4 (.node 2 (.node 1 (.leaf 252130582097987840)
 (.leaf 252238167616269728))
 (.node 1 (.leaf 252287279592916160)
 (.leaf 252290575802457888)))
 (.node 2 (.node 1 (.leaf 252428382479816544)
 (.leaf 252524708878628192))
 (.node 1 (.leaf 252611485624780224)
 (.leaf 252614350778442304))))
 (.node 4 (.node 2 (.node 1 (.leaf 253154673935442304)
 (.leaf 253247355123621408))
 (.node 1 (.leaf 253470898435239392)
 (.leaf 253646453514564064)))
 (.node 2 (.node 1 (.leaf 253662336646880512)
 (.leaf 253668231685484672))
 (.node 1 (.leaf 253674016938242624)
 (.leaf 253778736206352512))))))))
 (.node 64 (.node 32 (.node 16 (.node 8 (.node 4 (.node 2 (.node 1 (.leaf 253871056528476704)
 (.leaf 253892086350072608))
 (.node 1 (.leaf 254029268928616352)
 (.leaf 254099470444273440)))
 (.node 2 (.node 1 (.leaf 254109543483252672)
 (.leaf 254189502168973984))
 (.node 1 (.leaf 254309281943857120)
 (.leaf 254368997700428672))))
 (.node 4 (.node 2 (.node 1 (.leaf 254450445017748160)
 (.leaf 254771276288163232))
 (.node 1 (.leaf 254779698937002272)
 (.leaf 254797083623039360)))
 (.node 2 (.node 1 (.leaf 254815919532224064)
 (.leaf 254825145294713248))
 (.node 1 (.leaf 254928188427159872)
 (.leaf 255055728020082784)))))
 (.node 8 (.node 4 (.node 2 (.node 1 (.leaf 255157996409000960)
 (.leaf 255277546100089920))
 (.node 1 (.leaf 255287793551593504)
 (.leaf 255395510565380672)))
 (.node 2 (.node 1 (.leaf 255588505529954976)
 (.leaf 255621246999998688))
 (.node 1 (.leaf 255774541496399072)
 (.leaf 255821937576572672))))
 (.node 4 (.node 2 (.node 1 (.leaf 255844997648778752)
 (.leaf 256028457714678048))
 (.node 1 (.leaf 256047068723841472)
 (.leaf 256191731522694304)))
 (.node 2 (.node 1 (.leaf 256532523317908064)
 (.leaf 256768181720273504))
 (.node 1 (.leaf 256774721584400832)
 (.leaf 256813608519532096))))))
 (.node 16 (.node 8 (.node 4 (.node 2 (.node 1 (.leaf 256911535517687680)
 (.leaf 257051348958879936))
 (.node 1 (.leaf 257130058271500672)
 (.leaf 257363175067616128)))
 (.node 2 (.node 1 (.leaf 257405348814360288)
 (.leaf 257466764749485344))
 (.node 1 (.leaf 257643534866245728)
 (.leaf 257693163478215840))))
 (.node 4 (.node 2 (.node 1 (.leaf 258132166000772000)
 (.leaf 258237244932420224))
 (.node 1 (.leaf 258434313105771232)
 (.leaf 258454482703657440)))
 (.node 2 (.node 1 (.leaf 258616299952461792)
 (.leaf 258690181786723904))
 (.node 1 (.leaf 258705286425449632)
 (.leaf 258776621577533472)))))
 (.node 8 (.node 4 (.node 2 (.node 1 (.leaf 258777631399223872)
 (.leaf 258786557065100512))
 (.node 1 (.leaf 258832338124948896)
 (.leaf 259301390977861088)))
 (.node 2 (.node 1 (.leaf 259431620941006784)
 (.leaf 259527170227686528))
 (.node 1 (.leaf 259581733494032992)
 (.leaf 259583172294824864))))
 (.node 4 (.node 2 (.node 1 (.leaf 259663413286462464)
 (.leaf 259830558058778496))
 (.node 1 (.leaf 259907064245525248)
 (.leaf 260101880439362944)))
 (.node 2 (.node 1 (.leaf 260255167374859264)
 (.leaf 260283265991415648))
 (.node 1 (.leaf 260593559476379808)
 (.leaf 260651122539883616)))))))
 (.node 32 (.node 16 (.node 8 (.node 4 (.node 2 (.node 1 (.leaf 261088365248293312)
 (.leaf 261180818941693632))
 (.node 1 (.leaf 261238677427546944)
 (.leaf 261269329480684672)))
 (.node 2 (.node 1 (.leaf 261480792092212000)
 (.leaf 261680519126136576))
 (.node 1 (.leaf 261685228499682464)
 (.leaf 261770127768510528))))
 (.node 4 (.node 2 (.node 1 (.leaf 261995232457353408)
 (.leaf 261999990768702464))
 (.node 1 (.leaf 262030035909217760)
 (.leaf 262074281997242688)))
 (.node 2 (.node 1 (.leaf 262415334129961984)
 (.leaf 262451030806863200))
 (.node 1 (.leaf 262808647896798784)
 (.leaf 262922242114871648)))))
 (.node 8 (.node 4 (.node 2 (.node 1 (.leaf 263413186234290880)
 (.leaf 263635317696216352))
 (.node 1 (.leaf 264073941325244352)
 (.leaf 264094188458537184)))
 (.node 2 (.node 1 (.leaf 264265812491068736)
 (.leaf 264266535599849472))
 (.node 1 (.leaf 264376110371152512)
 (.leaf 264436203675928768))))
 (.node 4 (.node 2 (.node 1 (.leaf 264544494192007552)
 (.leaf 264622105637381504))
 (.node 1 (.leaf 265216893845647232)
 (.leaf 265227601838436992)))
 (.node 2 (.node 1 (.leaf 265291583196516032)
 (.leaf 265345225222608992))
 (.node 1 (.leaf 265658612006266528)
 (.leaf 265664550377042656))))))
 (.node 16 (.node 8 (.node 4 (.node 2 (.node 1 (.leaf 265789775654574496)
 (.leaf 265884133068790752))
 (.node 1 (.leaf 265903546303468640)
 (.leaf 265989679283292288)))
 (.node 2 (.node 1 (.leaf 266055082180240640)
 (.leaf 266145273794411648))
 (.node 1 (.leaf 266204591579594176)
 (.leaf 266326562820311424))))
 (.node 4 (.node 2 (.node 1 (.leaf 266446618042687392)
 (.leaf 266453961522612160))
 (.node 1 (.leaf 266590831559486848)
 (.leaf 266636101524347936)))
 (.node 2 (.node 1 (.leaf 266924725803768960)
 (.leaf 267057853794766336))
 (.node 1 (.leaf 267596807254523968)
 (.leaf 267664281478311296)))))
 (.node 8 (.node 4 (.node 2 (.node 1 (.leaf 267758376959303968)
 (.leaf 267796070964437312))
 (.node 1 (.leaf 267854540303985088)
 (.leaf 267866609261130560)))
 (.node 2 (.node 1 (.leaf 267922658108146912)
 (.leaf 268078111711288448))
 (.node 1 (.leaf 268125709650072320)
 (.leaf 268184587034427072))))
 (.node 4 (.node 2 (.node 1 (.leaf 268409127645879744)
 (.leaf 268524545076457280))
 (.node 1 (.leaf 268783226236449248)
 (.leaf 268810839029459136)))
 (.node 2 (.node 1 (.leaf 268879106049272832)
 (.leaf 268912121470241824))
 (.node 1 (.leaf 269154553396816576)
 (.leaf 269319048152479936)))))))))))))
 (.node 2048 (.node 1024 (.node 512 (.node 256 (.node 128 (.node 64 (.node 32 (.node 16 (.node 8 (.node 4 (.node 2 (.node 1 (.leaf 269319990897338048)
 (.leaf 269370878612559040))
 (.node 1 (.leaf 269507020012536544)
 (.leaf 269648076761794528)))
 (.node 2 (.node 1 (.leaf 269836018380830624)
 (.leaf 269858577581365024))
 (.node 1 (.leaf 269885068279620224)
 (.leaf 270123127283860448))))
 (.node 4 (.node 2 (.node 1 (.leaf 270228723969705824)
 (.leaf 270253904718452928))
 (.node 1 (.leaf 270340280412153248)
 (.leaf 270482269552193280)))
 (.node 2 (.node 1 (.leaf 270495193009752224)
 (.leaf 270861026987066240))
 (.node 1 (.leaf 270872726041077824)
 (.leaf 270880397979104704)))))
 (.node 8 (.node 4 (.node 2 (.node 1 (.leaf 270902171639433504)
 (.leaf 270989094354003488))
 (.node 1 (.leaf 271278294970868736)
 (.leaf 271525990114106784)))
 (.node 2 (.node 1 (.leaf 271724719237692736)
 (.leaf 271760756539203840))
 (.node 1 (.leaf 271860369342798368)
 (.leaf 271903172789168288))))
 (.node 4 (.node 2 (.node 1 (.leaf 271925530560589440)
 (.leaf 271927675576797856))
 (.node 1 (.leaf 272250344512981024)
 (.leaf 272334975262223552)))
 (.node 2 (.node 1 (.leaf 272616661865685248)
 (.leaf 273156144078852256))
 (.node 1 (.leaf 273356429433907104)
 (.leaf 273488532211992448))))))
 (.node 16 (.node 8 (.node 4 (.node 2 (.node 1 (.leaf 273656781542924704)
 (.leaf 273659309397790592))
 (.node 1 (.leaf 273784861713399072)
 (.leaf 273838033977152608)))
 (.node 2 (.node 1 (.leaf 274082667238520608)
 (.leaf 274165483224692992))
 (.node 1 (.leaf 274413501740214560)
 (.leaf 274441017656232192))))
 (.node 4 (.node 2 (.node 1 (.leaf 274537583395343200)
 (.leaf 274662674716950048))
 (.node 1 (.leaf 274709257354088416)
 (.leaf 274853543979380000)))
 (.node 2 (.node 1 (.leaf 275079224163637696)
 (.leaf 275223167583468704))
 (.node 1 (.leaf 275288023850566848)
 (.leaf 275324345049127744)))))
 (.node 8 (.node 4 (.node 2 (.node 1 (.leaf 275345083881700192)
 (.leaf 275377589058585952))
 (.node 1 (.leaf 275422843488910240)
 (.leaf 275525685998950272)))
 (.node 2 (.node 1 (.leaf 275663425701026560)
 (.leaf 276267523132128448))
 (.node 1 (.leaf 276272643737277792)
 (.leaf 276338005795007808))))
 (.node 4 (.node 2 (.node 1 (.leaf 276345083123469792)
 (.leaf 277267528411582944))
 (.node 1 (.leaf 277321542211007104)
 (.leaf 277326252366942880)))
 (.node 2 (.node 1 (.leaf 277433588159067776)
 (.leaf 277458426247775840))
 (.node 1 (.leaf 277639456847387040)
 (.leaf 277705934422327616)))))))
 (.node 32 (.node 16 (.node 8 (.node 4 (.node 2 (.node 1 (.leaf 278116725801940384)
 (.leaf 278310319455715616))
 (.node 1 (.leaf 278668373140374688)
 (.leaf 278975563202516000)))
 (.node 2 (.node 1 (.leaf 278993951225331712)
 (.leaf 279172186020682656))
 (.node 1 (.leaf 279402070341030336)
 (.leaf 279588688599175488))))
 (.node 4 (.node 2 (.node 1 (.leaf 279734059503114560)
 (.leaf 279944811110411040))
 (.node 1 (.leaf 279979899265043360)
 (.leaf 280074622150316608)))
 (.node 2 (.node 1 (.leaf 280127193351232864)
 (.leaf 280182553372735904))
 (.node 1 (.leaf 280226872414426560)
 (.leaf 280294626051425632)))))
 (.node 8 (.node 4 (.node 2 (.node 1 (.leaf 280510001778475584)
 (.leaf 280652797788985088))
 (.node 1 (.leaf 280734490329071360)
 (.leaf 280882696925797632)))
 (.node 2 (.node 1 (.leaf 281213008854595200)
 (.leaf 281359011883311104))
 (.node 1 (.leaf 281640650738121248)
 (.leaf 281659244229437696))))
 (.node 4 (.node 2 (.node 1 (.leaf 281708799824161984)
 (.leaf 281835929924255040))
 (.node 1 (.leaf 282108037037376032)
 (.leaf 282215235082278080)))
 (.node 2 (.node 1 (.leaf 282355023184129856)
 (.leaf 282416611797518944))
 (.node 1 (.leaf 282639518017123232)
 (.leaf 282744948598746976))))))
 (.node 16 (.node 8 (.node 4 (.node 2 (.node 1 (.leaf 282841102806266816)
 (.leaf 282900108841373376))
 (.node 1 (.leaf 282958793525708832)
 (.leaf 282992154136230176)))
 (.node 2 (.node 1 (.leaf 283293296562127040)
 (.leaf 283319413844820128))
 (.node 1 (.leaf 283386372926305216)
 (.leaf 283663388375043104))))
 (.node 4 (.node 2 (.node 1 (.leaf 284366835006710528)
 (.leaf 284601403098331232))
 (.node 1 (.leaf 284743516553103200)
 (.leaf 284761018611220448)))
 (.node 2 (.node 1 (.leaf 284890616834741312)
 (.leaf 284894710404968896))
 (.node 1 (.leaf 285192793145338720)
 (.leaf 285339894648629216)))))
 (.node 8 (.node 4 (.node 2 (.node 1 (.leaf 285351269442055680)
 (.leaf 285839905153655840))
 (.node 1 (.leaf 285948930919556480)
 (.leaf 286263455368060672)))
 (.node 2 (.node 1 (.leaf 286276743474115104)
 (.leaf 286348182154865216))
 (.node 1 (.leaf 286429041394521728)
 (.leaf 286720661422571808))))
 (.node 4 (.node 2 (.node 1 (.leaf 286785709962106784)
 (.leaf 286792937312701568))
 (.node 1 (.leaf 286958969886297248)
 (.leaf 287278150726637888)))
 (.node 2 (.node 1 (.leaf 287913639999849824)
 (.leaf 287980766711912768))
 (.node 1 (.leaf 288206151403303968)
 (.leaf 288232752729504320))))))))
 (.node 64 (.node 32 (.node 16 (.node 8 (.node 4 (.node 2 (.node 1 (.leaf 288425171502967552)
 (.leaf 288522706013789120))
 (.node 1 (.leaf 288593458080475904)
 (.leaf 288651667920330432)))
 (.node 2 (.node 1 (.leaf 288748584656614912)
 (.leaf 288926503778122176))
 (.node 1 (.leaf 289156004955718656)
 (.leaf 289193443569802176))))
 (.node 4 (.node 2 (.node 1 (.leaf 289329916337086208)
 (.leaf 289525662186680704))
 (.node 1 (.leaf 289713047721612160)
 (.leaf 289862238827687040)))
 (.node 2 (.node 1 (.leaf 289900897091712192)
 (.leaf 289941838284238912))
 (.node 1 (.leaf 290290248510979648)
 (.leaf 290316439283369472)))))
 (.node 8 (.node 4 (.node 2 (.node 1 (.leaf 290340528399782208)
 (.leaf 290585511315394944))
 (.node 1 (.leaf 290630372103838912)
 (.leaf 290727310845737856)))
 (.node 2 (.node 1 (.leaf 290811506436512128)
 (.leaf 290922222284606592))
 (.node 1 (.leaf 291103900975082880)
 (.leaf 291689809335668608))))
 (.node 4 (.node 2 (.node 1 (.leaf 292253491403778752)
 (.leaf 292905177616147136))
 (.node 1 (.leaf 292948978205547840)
 (.leaf 293162405673837120)))
 (.node 2 (.node 1 (.leaf 293470846061436864)
 (.leaf 293613591785679296))
 (.node 1 (.leaf 293707606955264576)
 (.leaf 293729376289798272))))))
 (.node 16 (.node 8 (.node 4 (.node 2 (.node 1 (.leaf 293801708089296064)
 (.leaf 293908610462125120))
 (.node 1 (.leaf 293945730966600256)
 (.leaf 294220525056296832)))
 (.node 2 (.node 1 (.leaf 294515082115731136)
 (.leaf 294751841566051008))
 (.node 1 (.leaf 294842177639917120)
 (.leaf 294905998414852416))))
 (.node 4 (.node 2 (.node 1 (.leaf 294924905081252224)
 (.leaf 294956157757472384))
 (.node 1 (.leaf 295042165797168192)
 (.leaf 295122264994905792)))
 (.node 2 (.node 1 (.leaf 295183882714817216)
 (.leaf 295390385106093760))
 (.node 1 (.leaf 295751714748105856)
 (.leaf 296040835319650048)))))
 (.node 8 (.node 4 (.node 2 (.node 1 (.leaf 296310882268160128)
 (.leaf 296444148524053824))
 (.node 1 (.leaf 296501674805469120)
 (.leaf 296512284756507712)))
 (.node 2 (.node 1 (.leaf 297113775378746368)
 (.leaf 297246648080092544))
 (.node 1 (.leaf 297335172139569216)
 (.leaf 297388699818488192))))
 (.node 4 (.node 2 (.node 1 (.leaf 297413131739991232)
 (.leaf 297418808795685056))
 (.node 1 (.leaf 297527072417655040)
 (.leaf 297606852004355200)))
 (.node 2 (.node 1 (.leaf 297638574328026624)
 (.leaf 297942759529091264))
 (.node 1 (.leaf 297974848090151104)
 (.leaf 298095540873241088)))))))
 (.node 32 (.node 16 (.node 8 (.node 4 (.node 2 (.node 1 (.leaf 298282666732672704)
 (.leaf 298321654781890688))
 (.node 1 (.leaf 298364552698450944)
 (.leaf 298561362265593472)))
 (.node 2 (.node 1 (.leaf 298665379559521088)
 (.leaf 299670097386541056))
 (.node 1 (.leaf 299890443016705664)
 (.leaf 299970341099231488))))
 (.node 4 (.node 2 (.node 1 (.leaf 300220192979410560)
 (.leaf 300330135335731200))
 (.node 1 (.leaf 300667854420860480)
 (.leaf 300894163709505408)))
 (.node 2 (.node 1 (.leaf 300970552895039488)
 (.leaf 300997823863022912))
 (.node 1 (.leaf 301269666673052032)
 (.leaf 301481670983512896)))))
 (.node 8 (.node 4 (.node 2 (.node 1 (.leaf 301576647313549312)
 (.leaf 301864031460148992))
 (.node 1 (.leaf 301958436046793472)
 (.leaf 302885261637375104)))
 (.node 2 (.node 1 (.leaf 302933415169316544)
 (.leaf 303164117067183424))
 (.node 1 (.leaf 303308838419041408)
 (.leaf 303368959692300480))))
 (.node 4 (.node 2 (.node 1 (.leaf 303375301495760256)
 (.leaf 303389742029308096))
 (.node 1 (.leaf 303550328048038272)
 (.leaf 303588556140630464)))
 (.node 2 (.node 1 (.leaf 303678369073512576)
 (.leaf 303883664795993216))
 (.node 1 (.leaf 304356198404896512)
 (.leaf 304573172251215360))))))
 (.node 16 (.node 8 (.node 4 (.node 2 (.node 1 (.leaf 304690858272480640)
 (.leaf 304881216365034880))
 (.node 1 (.leaf 305074706649304640)
 (.leaf 305118322413855488)))
 (.node 2 (.node 1 (.leaf 305164268014966400)
 (.leaf 305264416387384960))
 (.node 1 (.leaf 305650034312111104)
 (.leaf 306010359181468992))))
 (.node 4 (.node 2 (.node 1 (.leaf 306200271921463488)
 (.leaf 306217493195954432))
 (.node 1 (.leaf 306397348961917952)
 (.leaf 306408368752225728)))
 (.node 2 (.node 1 (.leaf 306724851847381760)
 (.leaf 306959895263652672))
 (.node 1 (.leaf 307000418454278464)
 (.leaf 307156550441451840)))))
 (.node 8 (.node 4 (.node 2 (.node 1 (.leaf 307631724413205440)
 (.leaf 307700408747264000))
 (.node 1 (.leaf 307710044808021184)
 (.leaf 307772095329675264)))
 (.node 2 (.node 1 (.leaf 307881021714484672)
 (.leaf 308032788201938880))
 (.node 1 (.leaf 308359809255284608)
 (.leaf 308376217196402048))))
 (.node 4 (.node 2 (.node 1 (.leaf 308391248756612864)
 (.leaf 308440764498214080))
 (.node 1 (.leaf 308555215669338368)
 (.leaf 308596737200843072)))
 (.node 2 (.node 1 (.leaf 308676035527484032)
 (.leaf 308794552975486784))
 (.node 1 (.leaf 309394586753390464)
 (.leaf 309429883441419136)))))))))
 (.node 128 (.node 64 (.node 32 (.node 16 (.node 8 (.node 4 (.node 2 (.node 1 (.leaf 309472989101600256)
 (.leaf 309527105857477248))
 (.node 1 (.leaf 309553573556690112)
 (.leaf 309749102699544704)))
 (.node 2 (.node 1 (.leaf 309830978677757312)
 (.leaf 309848648167546240))
 (.node 1 (.leaf 309995890833817664)
 (.leaf 310122529646100160))))
 (.node 4 (.node 2 (.node 1 (.leaf 310156751019115520)
 (.leaf 310211359811773504))
 (.node 1 (.leaf 310509350731948608)
 (.leaf 310551295276694528)))
 (.node 2 (.node 1 (.leaf 310599095035925120)
 (.leaf 310940643714191552))
 (.node 1 (.leaf 311006188524620800)
 (.leaf 311061643900696000)))))
 (.node 8 (.node 4 (.node 2 (.node 1 (.leaf 311184594334499200)
 (.leaf 311406297108192064))
 (.node 1 (.leaf 311438151474281280)
 (.leaf 312139349039364800)))
 (.node 2 (.node 1 (.leaf 312144557837580288)
 (.leaf 312335442034197696))
 (.node 1 (.leaf 312369344198793088)
 (.leaf 312833258441195328))))
 (.node 4 (.node 2 (.node 1 (.leaf 313161053151605312)
 (.leaf 313209249314548416))
 (.node 1 (.leaf 313271892455488704)
 (.leaf 313277236255478848)))
 (.node 2 (.node 1 (.leaf 313305379201302336)
 (.leaf 313346520478455872))
 (.node 1 (.leaf 313571397408342912)
 (.leaf 313842478498337152))))))
 (.node 16 (.node 8 (.node 4 (.node 2 (.node 1 (.leaf 314198301178826560)
 (.leaf 314317280058328448))
 (.node 1 (.leaf 314329387405797824)
 (.leaf 314422618664551680)))
 (.node 2 (.node 1 (.leaf 314709014584337600)
 (.leaf 314775699958647488))
 (.node 1 (.leaf 314850564872297536)
 (.leaf 315270728430636992))))
 (.node 4 (.node 2 (.node 1 (.leaf 315566482554067648)
 (.leaf 315704964097230656))
 (.node 1 (.leaf 315891775896085824)
 (.leaf 315954362540234944)))
 (.node 2 (.node 1 (.leaf 316122091947931008)
 (.leaf 316205530648467456))
 (.node 1 (.leaf 316393122172720384)
 (.leaf 316494796815210560)))))
 (.node 8 (.node 4 (.node 2 (.node 1 (.leaf 316605048581847872)
 (.leaf 316863955656716288))
 (.node 1 (.leaf 316907631398711104)
 (.leaf 316994948808969792)))
 (.node 2 (.node 1 (.leaf 317233129184984896)
 (.leaf 317252375163026304))
 (.node 1 (.leaf 317527689375370688)
 (.leaf 318044289090200128))))
 (.node 4 (.node 2 (.node 1 (.leaf 318352126491608960)
 (.leaf 318368232175080384))
 (.node 1 (.leaf 318467940218398208)
 (.leaf 318675167716180544)))
 (.node 2 (.node 1 (.leaf 318805798546082432)
 (.leaf 319174448580383488))
 (.node 1 (.leaf 319191033026622208)
 (.leaf 319271564484839936)))))))
 (.node 32 (.node 16 (.node 8 (.node 4 (.node 2 (.node 1 (.leaf 319479169129793024)
 (.leaf 319606845606674496))
 (.node 1 (.leaf 320343968374472512)
 (.leaf 320452289272576896)))
 (.node 2 (.node 1 (.leaf 320516017165497728)
 (.leaf 320532998182767616))
 (.node 1 (.leaf 320632542157622912)
 (.leaf 321140369688187200))))
 (.node 4 (.node 2 (.node 1 (.leaf 321496128390802304)
 (.leaf 321561688017361728))
 (.node 1 (.leaf 321621536388426176)
 (.leaf 321988858588311104)))
 (.node 2 (.node 1 (.leaf 322136682348643328)
 (.leaf 322433101934351552))
 (.node 1 (.leaf 322797621049329088)
 (.leaf 322840901164758336)))))
 (.node 8 (.node 4 (.node 2 (.node 1 (.leaf 323059611483415424)
 (.leaf 323281817897213376))
 (.node 1 (.leaf 323362884321368704)
 (.leaf 323534263021102848)))
 (.node 2 (.node 1 (.leaf 324375533566943232)
 (.leaf 325071718678879936))
 (.node 1 (.leaf 325470903656283584)
 (.leaf 325616793446772032))))
 (.node 4 (.node 2 (.node 1 (.leaf 325693791017796736)
 (.leaf 325989592161856576))
 (.node 1 (.leaf 326131954958732224)
 (.leaf 326700966051848448)))
 (.node 2 (.node 1 (.leaf 326934391600491392)
 (.leaf 327008218409646464))
 (.node 1 (.leaf 327074124181261632)
 (.leaf 327180123511230784))))))
 (.node 16 (.node 8 (.node 4 (.node 2 (.node 1 (.leaf 327492634398569280)
 (.leaf 327575183646259392))
 (.node 1 (.leaf 327616893301125056)
 (.leaf 327636011331948800)))
 (.node 2 (.node 1 (.leaf 327787667176044928)
 (.leaf 327905124768123584))
 (.node 1 (.leaf 327935423483587776)
 (.leaf 327942638115927104))))
 (.node 4 (.node 2 (.node 1 (.leaf 328193321297174720)
 (.leaf 328353123696875264))
 (.node 1 (.leaf 328385244116677440)
 (.leaf 328576751873698048)))
 (.node 2 (.node 1 (.leaf 328732362992942976)
 (.leaf 328890078899678528))
 (.node 1 (.leaf 329242666268831040)
 (.leaf 329356235610548544)))))
 (.node 8 (.node 4 (.node 2 (.node 1 (.leaf 329411201348218816)
 (.leaf 329546501437740160))
 (.node 1 (.leaf 329768804980833664)
 (.leaf 329890296976573504)))
 (.node 2 (.node 1 (.leaf 330116515854748160)
 (.leaf 330686512608971456))
 (.node 1 (.leaf 331165176007576960)
 (.leaf 331320993164120384))))
 (.node 4 (.node 2 (.node 1 (.leaf 331372729916083968)
 (.leaf 331435181913977984))
 (.node 1 (.leaf 331643440259344448)
 (.leaf 331743931533262016)))
 (.node 2 (.node 1 (.leaf 331951763632415744)
 (.leaf 332045959662392000))
 (.node 1 (.leaf 332069623511122944)
 (.leaf 332237354501692352))))))))
 (.node 64 (.node 32 (.node 16 (.node 8 (.node 4 (.node 2 (.node 1 (.leaf 332367529306131072)
 (.leaf 332469584655655168))
 (.node 1 (.leaf 332612203695315840)
 (.leaf 332633181832296832)))
 (.node 2 (.node 1 (.leaf 332946284746435456)
 (.leaf 333042897985543488))
 (.node 1 (.leaf 333240197093787904)
 (.leaf 333925842139423296))))
 (.node 4 (.node 2 (.node 1 (.leaf 334124729252545792)
 (.leaf 334294809497140800))
 (.node 1 (.leaf 334335118121224128)
 (.leaf 334387325537704896)))
 (.node 2 (.node 1 (.leaf 334541252557207232)
 (.leaf 334700741280340736))
 (.node 1 (.leaf 334751463891405312)
 (.leaf 334753005789958080)))))
 (.node 8 (.node 4 (.node 2 (.node 1 (.leaf 334770382841276672)
 (.leaf 334802532168542528))
 (.node 1 (.leaf 334805278460832832)
 (.leaf 334857559294239744)))
 (.node 2 (.node 1 (.leaf 334857559294239872)
 (.leaf 335212225736311360))
 (.node 1 (.leaf 335280675643133888)
 (.leaf 335590348741935616))))
 (.node 4 (.node 2 (.node 1 (.leaf 335657281495763520)
 (.leaf 335839539128768832))
 (.node 1 (.leaf 335913495050068352)
 (.leaf 335918357372919808)))
 (.node 2 (.node 1 (.leaf 336353684419845056)
 (.leaf 336525872787290944))
 (.node 1 (.leaf 336915899657484928)
 (.leaf 337196394207921408))))))
 (.node 16 (.node 8 (.node 4 (.node 2 (.node 1 (.leaf 337369188147601216)
 (.leaf 337976069105423040))
 (.node 1 (.leaf 338037058977177344)
 (.leaf 338112304122062656)))
 (.node 2 (.node 1 (.leaf 338302932583506304)
 (.leaf 338944144958190208))
 (.node 1 (.leaf 339144599593734784)
 (.leaf 339238533009186880))))
 (.node 4 (.node 2 (.node 1 (.leaf 339465148166645504)
 (.leaf 339729812131527488))
 (.node 1 (.leaf 339995151839238656)
 (.leaf 340185080717406784)))
 (.node 2 (.node 1 (.leaf 340565345034457792)
 (.leaf 340788904177953344))
 (.node 1 (.leaf 340829955143153408)
 (.leaf 340880699078671104)))))
 (.node 8 (.node 4 (.node 2 (.node 1 (.leaf 341159989704321664)
 (.leaf 341720290720468160))
 (.node 1 (.leaf 341798235170656896)
 (.leaf 341852761262046848)))
 (.node 2 (.node 1 (.leaf 341972741427818112)
 (.leaf 342331128527857280))
 (.node 1 (.leaf 342478288299032512)
 (.leaf 342790948695159680))))
 (.node 4 (.node 2 (.node 1 (.leaf 343136393270761024)
 (.leaf 343375855336434560))
 (.node 1 (.leaf 343476735500897984)
 (.leaf 343785676182939520)))
 (.node 2 (.node 1 (.leaf 344486292819461440)
 (.leaf 344651179506859072))
 (.node 1 (.leaf 344808660689708736)
 (.leaf 344882572669520576)))))))
 (.node 32 (.node 16 (.node 8 (.node 4 (.node 2 (.node 1 (.leaf 344996881423900032)
 (.leaf 345095952600418432))
 (.node 1 (.leaf 345142734978900032)
 (.leaf 345422357319007360)))
 (.node 2 (.node 1 (.leaf 345499185723414784)
 (.leaf 345560204961093376))
 (.node 1 (.leaf 345600532139085312)
 (.leaf 345634141370021056))))
 (.node 4 (.node 2 (.node 1 (.leaf 345750323426532032)
 (.leaf 346425572559270784))
 (.node 1 (.leaf 346448179269449472)
 (.leaf 346457983679297600)))
 (.node 2 (.node 1 (.leaf 346587782185391616)
 (.leaf 346804940336245440))
 (.node 1 (.leaf 347055012448093824)
 (.leaf 347684920214168384)))))
 (.node 8 (.node 4 (.node 2 (.node 1 (.leaf 347717072940776512)
 (.leaf 347798070427306112))
 (.node 1 (.leaf 347913069760503360)
 (.leaf 347941360097579200)))
 (.node 2 (.node 1 (.leaf 348124498532583424)
 (.leaf 348240767178615040))
 (.node 1 (.leaf 348368175374703936)
 (.leaf 348894236367772224))))
 (.node 4 (.node 2 (.node 1 (.leaf 348921029573478592)
 (.leaf 348943044600180800))
 (.node 1 (.leaf 349007720518526080)
 (.leaf 349387331854623040)))
 (.node 2 (.node 1 (.leaf 349664351194005184)
 (.leaf 349684186278587776))
 (.node 1 (.leaf 349783189205448192)
 (.leaf 349817807292438848))))))
 (.node 16 (.node 8 (.node 4 (.node 2 (.node 1 (.leaf 349821535167993216)
 (.leaf 349888292337456192))
 (.node 1 (.leaf 349892492319309184)
 (.leaf 350069947306789312)))
 (.node 2 (.node 1 (.leaf 350128842883326976)
 (.leaf 350140865682087232))
 (.node 1 (.leaf 350390491553744960)
 (.leaf 350443565886228608))))
 (.node 4 (.node 2 (.node 1 (.leaf 350476081249782080)
 (.leaf 350519385327867456))
 (.node 1 (.leaf 350562934668594368)
 (.leaf 350661766105983552)))
 (.node 2 (.node 1 (.leaf 351137700112269440)
 (.leaf 351232106756935360))
 (.node 1 (.leaf 352491487073562688)
 (.leaf 352894629235624000)))))
 (.node 8 (.node 4 (.node 2 (.node 1 (.leaf 352991016375066048)
 (.leaf 353625722930621248))
 (.node 1 (.leaf 353692665305642432)
 (.leaf 353712227541023232)))
 (.node 2 (.node 1 (.leaf 353962887882474432)
 (.leaf 353976789316720576))
 (.node 1 (.leaf 354208561606277696)
 (.leaf 354649502130059200))))
 (.node 4 (.node 2 (.node 1 (.leaf 355076080440258880)
 (.leaf 355119317488028416))
 (.node 1 (.leaf 355274680729608320)
 (.leaf 355522724271125632)))
 (.node 2 (.node 1 (.leaf 356020668013959360)
 (.leaf 356532892267073536))
 (.node 1 (.leaf 356842438990956352)
 (.leaf 356923547288911104))))))))))
 (.node 256 (.node 128 (.node 64 (.node 32 (.node 16 (.node 8 (.node 4 (.node 2 (.node 1 (.leaf 357032545059984384)
 (.leaf 357282097040007936))
 (.node 1 (.leaf 357406694589314176)
 (.leaf 357549242087169856)))
 (.node 2 (.node 1 (.leaf 358262565500261952)
 (.leaf 358306909151274176))
 (.node 1 (.leaf 358491002539200192)
 (.leaf 358657349053363008))))
 (.node 4 (.node 2 (.node 1 (.leaf 358722005608402880)
 (.leaf 358730613500111104))
 (.node 1 (.leaf 359029552380434432)
 (.leaf 360076911222590656)))
 (.node 2 (.node 1 (.leaf 360161133711276992)
 (.leaf 360649807292230016))
 (.node 1 (.leaf 360787199649370048)
 (.leaf 360812917475752320)))))
 (.node 8 (.node 4 (.node 2 (.node 1 (.leaf 360956258793348416)
 (.leaf 361286105620255488))
 (.node 1 (.leaf 361405653480382912)
 (.leaf 361427847518741056)))
 (.node 2 (.node 1 (.leaf 361452916250195072)
 (.leaf 361497235661467264))
 (.node 1 (.leaf 361577936153379200)
 (.leaf 361615316051987840))))
 (.node 4 (.node 2 (.node 1 (.leaf 361663564916268288)
 (.leaf 361713820234777792))
 (.node 1 (.leaf 361762459450334848)
 (.leaf 362151535631909696)))
 (.node 2 (.node 1 (.leaf 362343324252293568)
 (.leaf 362484824368219136))
 (.node 1 (.leaf 362903291127216000)
 (.leaf 362921461432330048))))))
 (.node 16 (.node 8 (.node 4 (.node 2 (.node 1 (.leaf 363222415670864064)
 (.leaf 363425748456228224))
 (.node 1 (.leaf 363513765487486656)
 (.leaf 363699826617270144)))
 (.node 2 (.node 1 (.leaf 364045759167757056)
 (.leaf 364046807633476672))
 (.node 1 (.leaf 364256236742911680)
 (.leaf 364399372650729536))))
 (.node 4 (.node 2 (.node 1 (.leaf 364611082836496064)
 (.leaf 364624457883398784))
 (.node 1 (.leaf 364681582296822976)
 (.leaf 365030119011799552)))
 (.node 2 (.node 1 (.leaf 365042372178754432)
 (.leaf 365111863954754176))
 (.node 1 (.leaf 365492703205926016)
 (.leaf 365502584626296512)))))
 (.node 8 (.node 4 (.node 2 (.node 1 (.leaf 365549862751466944)
 (.leaf 365669607447341376))
 (.node 1 (.leaf 365763494184707200)
 (.leaf 365938953606368448)))
 (.node 2 (.node 1 (.leaf 366259482620398400)
 (.leaf 366372536173518976))
 (.node 1 (.leaf 366648497901474688)
 (.leaf 366873147704047872))))
 (.node 4 (.node 2 (.node 1 (.leaf 367029687628344384)
 (.leaf 367084291032898624))
 (.node 1 (.leaf 367291016555890432)
 (.leaf 367691063500697024)))
 (.node 2 (.node 1 (.leaf 367899965287809088)
 (.leaf 368119856212057344))
 (.node 1 (.leaf 368174139696015168)
 (.leaf 368985533847557120)))))))
 (.node 32 (.node 16 (.node 8 (.node 4 (.node 2 (.node 1 (.leaf 369060794062262848)
 (.leaf 369151769647312064))
 (.node 1 (.leaf 369361028405282304)
 (.leaf 369366865364336448)))
 (.node 2 (.node 1 (.leaf 369668236334617920)
 (.leaf 369772941280310080))
 (.node 1 (.leaf 370424151989364928)
 (.leaf 370689414605239616))))
 (.node 4 (.node 2 (.node 1 (.leaf 371048953154089728)
 (.leaf 371136372492921920))
 (.node 1 (.leaf 371260307220812864)
 (.leaf 371313531802681664)))
 (.node 2 (.node 1 (.leaf 371338637486547584)
 (.leaf 371342242422493632))
 (.node 1 (.leaf 371586907643812928)
 (.leaf 371642145696565952)))))
 (.node 8 (.node 4 (.node 2 (.node 1 (.leaf 372463831358066432)
 (.leaf 372480625110950400))
 (.node 1 (.leaf 372609407117136512)
 (.leaf 372878797258670464)))
 (.node 2 (.node 1 (.leaf 372883583185856192)
 (.leaf 373002327019130944))
 (.node 1 (.leaf 373249931717677312)
 (.leaf 373252286738339136))))
 (.node 4 (.node 2 (.node 1 (.leaf 373312797345949760)
 (.leaf 373429143491304576))
 (.node 1 (.leaf 373815859563052288)
 (.leaf 373858477823163264)))
 (.node 2 (.node 1 (.leaf 374029069913806592)
 (.leaf 374531594248675776))
 (.node 1 (.leaf 374644986659995008)
 (.leaf 374831596011424768))))))
 (.node 16 (.node 8 (.node 4 (.node 2 (.node 1 (.leaf 374860225993865536)
 (.leaf 375027020109984000))
 (.node 1 (.leaf 375083257223060672)
 (.leaf 375228616921252416)))
 (.node 2 (.node 1 (.leaf 375794492575547328)
 (.leaf 375966514302557184))
 (.node 1 (.leaf 376003847040885248)
 (.leaf 376051488245640960))))
 (.node 4 (.node 2 (.node 1 (.leaf 376652752695214848)
 (.leaf 377107828475923136))
 (.node 1 (.leaf 377122945975800512)
 (.leaf 377243138352471296)))
 (.node 2 (.node 1 (.leaf 377243138352471360)
 (.leaf 377679725614660544))
 (.node 1 (.leaf 378078398028210048)
 (.leaf 378300096966085440)))))
 (.node 8 (.node 4 (.node 2 (.node 1 (.leaf 378340392607839040)
 (.leaf 378581334692563776))
 (.node 1 (.leaf 378639379718848064)
 (.leaf 378676907674397952)))
 (.node 2 (.node 1 (.leaf 378736979425572864)
 (.leaf 378924083704066432))
 (.node 1 (.leaf 378965901164315264)
 (.leaf 379143595594383744))))
 (.node 4 (.node 2 (.node 1 (.leaf 379291349872949376)
 (.leaf 379562211085985536))
 (.node 1 (.leaf 379689433755438976)
 (.leaf 380199801389357120)))
 (.node 2 (.node 1 (.leaf 380784066639586944)
 (.leaf 380904469469797120))
 (.node 1 (.leaf 381046452993329344)
 (.leaf 381068271824799808))))))))
 (.node 64 (.node 32 (.node 16 (.node 8 (.node 4 (.node 2 (.node 1 (.leaf 381374731288996480)
 (.leaf 381676180132663616))
 (.node 1 (.leaf 381719782927580608)
 (.leaf 382543043480945152)))
 (.node 2 (.node 1 (.leaf 383091251955341248)
 (.leaf 383649805144423040))
 (.node 1 (.leaf 383910962721751680)
 (.leaf 384200188105297536))))
 (.node 4 (.node 2 (.node 1 (.leaf 384762449164793024)
 (.leaf 385092707392323264))
 (.node 1 (.leaf 385162098194832192)
 (.leaf 385188103909371520)))
 (.node 2 (.node 1 (.leaf 385709237560104448)
 (.leaf 385826286801578944))
 (.node 1 (.leaf 385938588397252352)
 (.leaf 386176550398929408)))))
 (.node 8 (.node 4 (.node 2 (.node 1 (.leaf 386185567472653120)
 (.leaf 386279939234199232))
 (.node 1 (.leaf 386383012046895808)
 (.leaf 386945917187952896)))
 (.node 2 (.node 1 (.leaf 386982548197982784)
 (.leaf 387117073513464000))
 (.node 1 (.leaf 387177522988222464)
 (.leaf 387538868695611008))))
 (.node 4 (.node 2 (.node 1 (.leaf 387600933696285120)
 (.leaf 387791087436339712))
 (.node 1 (.leaf 388206808440543744)
 (.leaf 388431457703892544)))
 (.node 2 (.node 1 (.leaf 388521936094202304)
 (.leaf 388936008581827072))
 (.node 1 (.leaf 388954630706720512)
 (.leaf 389106434440951680))))))
 (.node 16 (.node 8 (.node 4 (.node 2 (.node 1 (.leaf 389240546761165632)
 (.leaf 389282847396455168))
 (.node 1 (.leaf 389420801878774208)
 (.leaf 389619011380471040)))
 (.node 2 (.node 1 (.leaf 389709168564361280)
 (.leaf 389866738657998656))
 (.node 1 (.leaf 389899896633013440)
 (.leaf 389947193147632000))))
 (.node 4 (.node 2 (.node 1 (.leaf 390037568959175808)
 (.leaf 390082010809100544))
 (.node 1 (.leaf 390090225674312576)
 (.leaf 390196184561189568)))
 (.node 2 (.node 1 (.leaf 390546636775046208)
 (.leaf 391313230220871296))
 (.node 1 (.leaf 391414349749503232)
 (.leaf 391545632592823488)))))
 (.node 8 (.node 4 (.node 2 (.node 1 (.leaf 391551061769161536)
 (.leaf 391597272568469248))
 (.node 1 (.leaf 391941466762886464)
 (.leaf 391948093513966720)))
 (.node 2 (.node 1 (.leaf 392095828641318208)
 (.leaf 392341285842110464))
 (.node 1 (.leaf 392704851748418176)
 (.leaf 393001223312601664))))
 (.node 4 (.node 2 (.node 1 (.leaf 393002323592888256)
 (.leaf 393146083819435520))
 (.node 1 (.leaf 393553623969136384)
 (.leaf 393908152165906240)))
 (.node 2 (.node 1 (.leaf 394072246096638592)
 (.leaf 394117651791952128))
 (.node 1 (.leaf 394157775736136320)
 (.leaf 394357400651737408)))))))
 (.node 32 (.node 16 (.node 8 (.node 4 (.node 2 (.node 1 (.leaf 394864439143559680)
 (.leaf 395420096408976000))
 (.node 1 (.leaf 396072598704924032)
 (.leaf 396202734672307200)))
 (.node 2 (.node 1 (.leaf 396405805174185408)
 (.leaf 396738914495086272))
 (.node 1 (.leaf 396764417370926464)
 (.leaf 396947382267277696))))
 (.node 4 (.node 2 (.node 1 (.leaf 397010013044434368)
 (.leaf 397249677065956672))
 (.node 1 (.leaf 397376456233755520)
 (.leaf 397739062649466752)))
 (.node 2 (.node 1 (.leaf 397927578579042048)
 (.leaf 397957614528114944))
 (.node 1 (.leaf 398065681408394048)
 (.leaf 398311814735933056)))))
 (.node 8 (.node 4 (.node 2 (.node 1 (.leaf 398319892776583808)
 (.leaf 398523870795593856))
 (.node 1 (.leaf 398958398179900544)
 (.leaf 399075535301872512)))
 (.node 2 (.node 1 (.leaf 399636366325369664)
 (.leaf 399864064973019072))
 (.node 1 (.leaf 399878502822404928)
 (.leaf 400256533095382208))))
 (.node 4 (.node 2 (.node 1 (.leaf 400657456735429824)
 (.leaf 400839502747460160))
 (.node 1 (.leaf 401176878427488576)
 (.leaf 401242332034366080)))
 (.node 2 (.node 1 (.leaf 401410622755501824)
 (.leaf 401811612646997568))
 (.node 1 (.leaf 401825866239355648)
 (.leaf 401861516536399360))))))
 (.node 16 (.node 8 (.node 4 (.node 2 (.node 1 (.leaf 402400760033811328)
 (.leaf 402444418670397312))
 (.node 1 (.leaf 402500289482519680)
 (.leaf 402593179731859648)))
 (.node 2 (.node 1 (.leaf 402780560258428800)
 (.leaf 402868241886490176))
 (.node 1 (.leaf 402967411510728000)
 (.leaf 403083850784660672))))
 (.node 4 (.node 2 (.node 1 (.leaf 403487871866020480)
 (.leaf 403893795851496960))
 (.node 1 (.leaf 404440157523504000)
 (.leaf 404533530899023168)))
 (.node 2 (.node 1 (.leaf 404621595727424064)
 (.leaf 404756548008899392))
 (.node 1 (.leaf 404786460879624320)
 (.leaf 405005291322539712)))))
 (.node 8 (.node 4 (.node 2 (.node 1 (.leaf 405248576615270976)
 (.leaf 405349987231739072))
 (.node 1 (.leaf 405430718218652160)
 (.leaf 406058177893241920)))
 (.node 2 (.node 1 (.leaf 406211776043676480)
 (.leaf 406317379671131200))
 (.node 1 (.leaf 407858958553316480)
 (.leaf 407900764294890944))))
 (.node 4 (.node 2 (.node 1 (.leaf 408083149153937344)
 (.leaf 408228901841765440))
 (.node 1 (.leaf 408329544065978944)
 (.leaf 408331361890351616)))
 (.node 2 (.node 1 (.leaf 408550909623379200)
 (.leaf 408610526271746688))
 (.node 1 (.leaf 408754581438753600)
 (.leaf 408835000444497920)))))))))
 (.node 128 (.node 64 (.node 32 (.node 16 (.node 8 (.node 4 (.node 2 (.node 1 (.leaf 409341399208241984)
 (.leaf 409556523182976064))
 (.node 1 (.leaf 409712243759843072)
 (.leaf 409722886008604032)))
 (.node 2 (.node 1 (.leaf 409775709250206656)
 (.leaf 410285742454615296))
 (.node 1 (.leaf 410344316817590208)
 (.leaf 410587406114140224))))
 (.node 4 (.node 2 (.node 1 (.leaf 410654570409283072)
 (.leaf 410837675939187072))
 (.node 1 (.leaf 411294600648023168)
 (.leaf 411787410130632256)))
 (.node 2 (.node 1 (.leaf 411974903909277696)
 (.leaf 412177718411140416))
 (.node 1 (.leaf 412376359031358400)
 (.leaf 412770023854241984)))))
 (.node 8 (.node 4 (.node 2 (.node 1 (.leaf 412883985617257216)
 (.leaf 413651490068540672))
 (.node 1 (.leaf 413666910862091008)
 (.leaf 413743209214083200)))
 (.node 2 (.node 1 (.leaf 413856128766380736)
 (.leaf 413869882827140800))
 (.node 1 (.leaf 413957856157640384)
 (.leaf 414688757057043648))))
 (.node 4 (.node 2 (.node 1 (.leaf 414738625002686912)
 (.leaf 414820428042796544))
 (.node 1 (.leaf 414966454505528064)
 (.leaf 415467188570561152)))
 (.node 2 (.node 1 (.leaf 415751777463907776)
 (.leaf 416135958849157632))
 (.node 1 (.leaf 416256150514841728)
 (.leaf 416482251156877760))))))
 (.node 16 (.node 8 (.node 4 (.node 2 (.node 1 (.leaf 416602353438759040)
 (.leaf 416792819667873664))
 (.node 1 (.leaf 417099232376457984)
 (.leaf 417379288853566720)))
 (.node 2 (.node 1 (.leaf 418351545233668928)
 (.leaf 418415790422987072))
 (.node 1 (.leaf 418425842543522880)
 (.leaf 418585078667671424))))
 (.node 4 (.node 2 (.node 1 (.leaf 418772878967419712)
 (.leaf 418893689092919040))
 (.node 1 (.leaf 419043373366281600)
 (.leaf 419401063582347584)))
 (.node 2 (.node 1 (.leaf 419434327070806080)
 (.leaf 420097424123830144))
 (.node 1 (.leaf 420784349957400256)
 (.leaf 420919899221613568)))))
 (.node 8 (.node 4 (.node 2 (.node 1 (.leaf 420954124275557632)
 (.leaf 421167033078742848))
 (.node 1 (.leaf 421262427944137216)
 (.leaf 421724399081402752)))
 (.node 2 (.node 1 (.leaf 421793908023500032)
 (.leaf 421798832604609984))
 (.node 1 (.leaf 422209932827290624)
 (.leaf 422225997805954176))))
 (.node 4 (.node 2 (.node 1 (.leaf 422360559433455424)
 (.leaf 422387523773503808))
 (.node 1 (.leaf 422545742744200064)
 (.leaf 422893074753368064)))
 (.node 2 (.node 1 (.leaf 423362117915248768)
 (.leaf 424239015669307200))
 (.node 1 (.leaf 424295173646954048)
 (.leaf 425054101981757376)))))))
 (.node 32 (.node 16 (.node 8 (.node 4 (.node 2 (.node 1 (.leaf 426208009733336128)
 (.leaf 426270718003433280))
 (.node 1 (.leaf 426321350509291136)
 (.leaf 426350212290911680)))
 (.node 2 (.node 1 (.leaf 426501555215490176)
 (.leaf 426628294941643392))
 (.node 1 (.leaf 427245244384346432)
 (.leaf 427270066073941120))))
 (.node 4 (.node 2 (.node 1 (.leaf 427340823556788096)
 (.leaf 427490713199169088))
 (.node 1 (.leaf 427754663974665664)
 (.leaf 427826743189280704)))
 (.node 2 (.node 1 (.leaf 428115016259598080)
 (.leaf 428121689679280640))
 (.node 1 (.leaf 428511749599253504)
 (.leaf 428649662459976640)))))
 (.node 8 (.node 4 (.node 2 (.node 1 (.leaf 428861574108656960)
 (.leaf 429282192372122240))
 (.node 1 (.leaf 429492307181151296)
 (.leaf 429698918277220416)))
 (.node 2 (.node 1 (.leaf 429796675646074816)
 (.leaf 429813849976775168))
 (.node 1 (.leaf 429908861365190720)
 (.leaf 430056847860406720))))
 (.node 4 (.node 2 (.node 1 (.leaf 430188794698369280)
 (.leaf 430586561046345344))
 (.node 1 (.leaf 430672854821614144)
 (.leaf 430884920247593472)))
 (.node 2 (.node 1 (.leaf 431017581381752832)
 (.leaf 431092145703866176))
 (.node 1 (.leaf 431415215653882304)
 (.leaf 431718854721550528))))))
 (.node 16 (.node 8 (.node 4 (.node 2 (.node 1 (.leaf 431742306481709312)
 (.leaf 431896558019339904))
 (.node 1 (.leaf 431905838676116032)
 (.leaf 431948110985739072)))
 (.node 2 (.node 1 (.leaf 432111820195572160)
 (.leaf 432633403789700352))
 (.node 1 (.leaf 432739886903591616)
 (.leaf 433070668214494080))))
 (.node 4 (.node 2 (.node 1 (.leaf 433191266681949184)
 (.leaf 433445347953167232))
 (.node 1 (.leaf 433554207737869888)
 (.leaf 433706936507783744)))
 (.node 2 (.node 1 (.leaf 433737117392964288)
 (.leaf 433853634990166272))
 (.node 1 (.leaf 434266590297569984)
 (.leaf 435149518154037248)))))
 (.node 8 (.node 4 (.node 2 (.node 1 (.leaf 435258148949388544)
 (.leaf 435533119363339200))
 (.node 1 (.leaf 436166687545141952)
 (.leaf 436265693406958400)))
 (.node 2 (.node 1 (.leaf 436521562336440320)
 (.leaf 436904008134093440))
 (.node 1 (.leaf 437017668381164032)
 (.leaf 437049668089186240))))
 (.node 4 (.node 2 (.node 1 (.leaf 437437791330151872)
 (.leaf 437445854752755392))
 (.node 1 (.leaf 437665190285642624)
 (.leaf 438182463664964224)))
 (.node 2 (.node 1 (.leaf 438207435997936192)
 (.leaf 438219950868395392))
 (.node 1 (.leaf 438386014551796160)
 (.leaf 438661169807103936))))))))
 (.node 64 (.node 32 (.node 16 (.node 8 (.node 4 (.node 2 (.node 1 (.leaf 438671259222140352)
 (.leaf 438808215221456384))
 (.node 1 (.leaf 438900851513904128)
 (.leaf 438957656547853056)))
 (.node 2 (.node 1 (.leaf 439074426645242752)
 (.leaf 439230247169387136))
 (.node 1 (.leaf 439423087305533504)
 (.leaf 439942928825524736))))
 (.node 4 (.node 2 (.node 1 (.leaf 440277946899195200)
 (.leaf 440775799258145024))
 (.node 1 (.leaf 440819031062014848)
 (.leaf 442248320264957376)))
 (.node 2 (.node 1 (.leaf 442295354189985664)
 (.leaf 442670821717815872))
 (.node 1 (.leaf 442770690875084032)
 (.leaf 443306243082050560)))))
 (.node 8 (.node 4 (.node 2 (.node 1 (.leaf 443533106949929344)
 (.leaf 443852649132993536))
 (.node 1 (.leaf 444046577539504320)
 (.leaf 444386088983997056)))
 (.node 2 (.node 1 (.leaf 444576412163604288)
 (.leaf 444687259749307200))
 (.node 1 (.leaf 444988100215660992)
 (.leaf 445174612710821120))))
 (.node 4 (.node 2 (.node 1 (.leaf 445251180649665792)
 (.leaf 445913919494827136))
 (.node 1 (.leaf 446039767896992640)
 (.leaf 446159964468302144)))
 (.node 2 (.node 1 (.leaf 446212910218611712)
 (.leaf 446456187151818496))
 (.node 1 (.leaf 446922785001861184)
 (.leaf 447707907139282432))))))
 (.node 16 (.node 8 (.node 4 (.node 2 (.node 1 (.leaf 447974874436663616)
 (.leaf 448220487263327488))
 (.node 1 (.leaf 448337128149364928)
 (.leaf 449217634547137280)))
 (.node 2 (.node 1 (.leaf 449498150285740544)
 (.leaf 449683343182566912))
 (.node 1 (.leaf 449720279021436544)
 (.leaf 450106352513433984))))
 (.node 4 (.node 2 (.node 1 (.leaf 450968450803843456)
 (.leaf 450985703924082432))
 (.node 1 (.leaf 451109054541999360)
 (.leaf 451884189474159104)))
 (.node 2 (.node 1 (.leaf 452053451781912256)
 (.leaf 452723805591553856))
 (.node 1 (.leaf 453059066360003968)
 (.leaf 453112438173132608)))))
 (.node 8 (.node 4 (.node 2 (.node 1 (.leaf 453445849916578624)
 (.leaf 453942136557910208))
 (.node 1 (.leaf 454403913255938688)
 (.leaf 455025845176342464)))
 (.node 2 (.node 1 (.leaf 455052793786368832)
 (.leaf 455142334346500480))
 (.node 1 (.leaf 455154181428359936)
 (.leaf 455196529463602496))))
 (.node 4 (.node 2 (.node 1 (.leaf 455416022118600448)
 (.leaf 455510730664167296))
 (.node 1 (.leaf 455813990923683968)
 (.leaf 456215092166818304)))
 (.node 2 (.node 1 (.leaf 456882404375387392)
 (.leaf 457041890955276800))
 (.node 1 (.leaf 457326983307214528)
 (.leaf 457380909585646784)))))))
 (.node 32 (.node 16 (.node 8 (.node 4 (.node 2 (.node 1 (.leaf 457788092671923648)
 (.leaf 458141835623309184))
 (.node 1 (.leaf 458413224123376896)
 (.leaf 458429983407477312)))
 (.node 2 (.node 1 (.leaf 458570949750797120)
 (.leaf 458606596934292608))
 (.node 1 (.leaf 458839241678943296)
 (.leaf 459082239199993600))))
 (.node 4 (.node 2 (.node 1 (.leaf 459219848892722816)
 (.leaf 459235858497111680))
 (.node 1 (.leaf 459291818279105920)
 (.leaf 459743526386068672)))
 (.node 2 (.node 1 (.leaf 459956426241878208)
 (.leaf 460344668374319104))
 (.node 1 (.leaf 460566627424065600)
 (.leaf 460879493329275584)))))
 (.node 8 (.node 4 (.node 2 (.node 1 (.leaf 461507504820650624)
 (.leaf 461980583877760064))
 (.node 1 (.leaf 462029556042584384)
 (.leaf 462810537550384192)))
 (.node 2 (.node 1 (.leaf 463076118070863488)
 (.leaf 463212468952926656))
 (.node 1 (.leaf 464454509679613696)
 (.leaf 464620751833785088))))
 (.node 4 (.node 2 (.node 1 (.leaf 464736911724860992)
 (.leaf 464748732714160896))
 (.node 1 (.leaf 464881096853879872)
 (.leaf 464944525633379136)))
 (.node 2 (.node 1 (.leaf 464957925655735168)
 (.leaf 465412083017202816))
 (.node 1 (.leaf 465531283863880832)
 (.leaf 465592070427348160))))))
 (.node 16 (.node 8 (.node 4 (.node 2 (.node 1 (.leaf 466029889515815360)
 (.leaf 466073267339376960))
 (.node 1 (.leaf 466094013474679232)
 (.leaf 466885531933710080)))
 (.node 2 (.node 1 (.leaf 467407193715476288)
 (.leaf 467575340077830656))
 (.node 1 (.leaf 467593374835086336)
 (.leaf 468184464163452480))))
 (.node 4 (.node 2 (.node 1 (.leaf 468211294392146624)
 (.leaf 468298925629910848))
 (.node 1 (.leaf 468420403736635776)
 (.leaf 468421337122336192)))
 (.node 2 (.node 1 (.leaf 468444398530098880)
 (.leaf 468538855168656512))
 (.node 1 (.leaf 468613215726482752)
 (.leaf 469573945698660608)))))
 (.node 8 (.node 4 (.node 2 (.node 1 (.leaf 469742670246843520)
 (.leaf 470331749417634048))
 (.node 1 (.leaf 470624517632530048)
 (.leaf 470917717849881472)))
 (.node 2 (.node 1 (.leaf 471216932451155520)
 (.leaf 471328418778538432))
 (.node 1 (.leaf 471475789256735168)
 (.leaf 471672338740447232))))
 (.node 4 (.node 2 (.node 1 (.leaf 472122858312037056)
 (.leaf 472631134338530432))
 (.node 1 (.leaf 472844260543179072)
 (.leaf 473089773534772800)))
 (.node 2 (.node 1 (.leaf 473093096891620032)
 (.leaf 473351950672299584))
 (.node 1 (.leaf 473418308946012224)
 (.leaf 473443307763605056)))))))))))
 (.node 512 (.node 256 (.node 128 (.node 64 (.node 32 (.node 16 (.node 8 (.node 4 (.node 2 (.node 1 (.leaf 474639342700161088)
 (.leaf 475725386841748160))
 (.node 1 (.leaf 475729515528601216)
 (.leaf 475877142630444608)))
 (.node 2 (.node 1 (.leaf 476003308196878208)
 (.leaf 476004062209531968))
 (.node 1 (.leaf 476004062209532032)
 (.leaf 476639177905385664))))
 (.node 4 (.node 2 (.node 1 (.leaf 476673348162547648)
 (.leaf 476991418315775744))
 (.node 1 (.leaf 477301530505083072)
 (.leaf 477307244462479744)))
 (.node 2 (.node 1 (.leaf 477777311352059072)
 (.leaf 478297533999830336))
 (.node 1 (.leaf 478519532315828352)
 (.leaf 478837396544078080)))))
 (.node 8 (.node 4 (.node 2 (.node 1 (.leaf 479221759825934016)
 (.leaf 479819919794728128))
 (.node 1 (.leaf 479824844810071744)
 (.leaf 479955119754821568)))
 (.node 2 (.node 1 (.leaf 480592811291672640)
 (.leaf 480951644257605952))
 (.node 1 (.leaf 481052498275042176)
 (.leaf 481066996753890368))))
 (.node 4 (.node 2 (.node 1 (.leaf 481124370666201856)
 (.leaf 481492622670143040))
 (.node 1 (.leaf 481598998993804160)
 (.leaf 481951081824196416)))
 (.node 2 (.node 1 (.leaf 482582007375304064)
 (.leaf 482744888901079552))
 (.node 1 (.leaf 482806725610587456)
 (.leaf 482823568044232896))))))
 (.node 16 (.node 8 (.node 4 (.node 2 (.node 1 (.leaf 483059872154270336)
 (.leaf 483074161787347392))
 (.node 1 (.leaf 483084223027951680)
 (.leaf 483294589663113344)))
 (.node 2 (.node 1 (.leaf 483325683050121088)
 (.leaf 483430151021742464))
 (.node 1 (.leaf 483940618694655744)
 (.leaf 483946099836592128))))
 (.node 4 (.node 2 (.node 1 (.leaf 484222141173659456)
 (.leaf 484294460938593728))
 (.node 1 (.leaf 484584330876805056)
 (.leaf 484960886573654272)))
 (.node 2 (.node 1 (.leaf 485357500703266432)
 (.leaf 485531463792866624))
 (.node 1 (.leaf 485963993095870592)
 (.leaf 486185714967282816)))))
 (.node 8 (.node 4 (.node 2 (.node 1 (.leaf 486326462881760768)
 (.leaf 486932860892155904))
 (.node 1 (.leaf 487045937762350464)
 (.leaf 487060539157088064)))
 (.node 2 (.node 1 (.leaf 487298545268363776)
 (.leaf 487351628933566592))
 (.node 1 (.leaf 487419644897930176)
 (.leaf 487995206902906688))))
 (.node 4 (.node 2 (.node 1 (.leaf 487996086508604160)
 (.leaf 488331248132412416))
 (.node 1 (.leaf 489218372118470080)
 (.leaf 489736348950730304)))
 (.node 2 (.node 1 (.leaf 490137808115862400)
 (.leaf 490257336281964736))
 (.node 1 (.leaf 490328152578966656)
 (.leaf 490771148813728576)))))))
 (.node 32 (.node 16 (.node 8 (.node 4 (.node 2 (.node 1 (.leaf 490971000643809344)
 (.leaf 491094665736026176))
 (.node 1 (.leaf 491185087823120704)
 (.leaf 491548555949730560)))
 (.node 2 (.node 1 (.leaf 491595392506281920)
 (.leaf 491773015784264192))
 (.node 1 (.leaf 492103164502253056)
 (.leaf 493802528713256320))))
 (.node 4 (.node 2 (.node 1 (.leaf 494691865343499712)
 (.leaf 494745201184514240))
 (.node 1 (.leaf 494823228789869248)
 (.leaf 495002251852797760)))
 (.node 2 (.node 1 (.leaf 495168930828028992)
 (.leaf 495281637267658368))
 (.node 1 (.leaf 495452544214805120)
 (.leaf 495916685432907328)))))
 (.node 8 (.node 4 (.node 2 (.node 1 (.leaf 496279689042493952)
 (.leaf 496457626173116032))
 (.node 1 (.leaf 496602752235212928)
 (.leaf 497007639819428032)))
 (.node 2 (.node 1 (.leaf 497044671780246656)
 (.leaf 497339851103481152))
 (.node 1 (.leaf 497519245949647552)
 (.leaf 497521021276254336))))
 (.node 4 (.node 2 (.node 1 (.leaf 497606981570512256)
 (.leaf 498096160891850048))
 (.node 1 (.leaf 498166444328432448)
 (.leaf 498555756957048256)))
 (.node 2 (.node 1 (.leaf 498704468716680704)
 (.leaf 498864119554632128))
 (.node 1 (.leaf 499478780201250944)
 (.leaf 499540345699064832))))))
 (.node 16 (.node 8 (.node 4 (.node 2 (.node 1 (.leaf 499600720789254016)
 (.leaf 499625420593040512))
 (.node 1 (.leaf 499697906814028480)
 (.leaf 499855239572806592)))
 (.node 2 (.node 1 (.leaf 499921264229934272)
 (.leaf 499953081545366400))
 (.node 1 (.leaf 500168729049389376)
 (.leaf 500260155274105536))))
 (.node 4 (.node 2 (.node 1 (.leaf 500360329311912640)
 (.leaf 500503582541164864))
 (.node 1 (.leaf 501005020174725824)
 (.leaf 501055741404340608)))
 (.node 2 (.node 1 (.leaf 501083858551618304)
 (.leaf 501099820314465280))
 (.node 1 (.leaf 501593491777734528)
 (.leaf 501856232274705024)))))
 (.node 8 (.node 4 (.node 2 (.node 1 (.leaf 502413773722431488)
 (.leaf 502512099499986560))
 (.node 1 (.leaf 502671645679925440)
 (.leaf 503110138714597440)))
 (.node 2 (.node 1 (.leaf 503591853565383296)
 (.leaf 504029355319580096))
 (.node 1 (.leaf 504238876119517888)
 (.leaf 504296678502856576))))
 (.node 4 (.node 2 (.node 1 (.leaf 504400478507560256)
 (.leaf 504435351551729024))
 (.node 1 (.leaf 504732736566147328)
 (.leaf 505013640353432128)))
 (.node 2 (.node 1 (.leaf 505130967910133504)
 (.leaf 505148039873004224))
 (.node 1 (.leaf 506514092185566912)
 (.leaf 506785624627950656))))))))
 (.node 64 (.node 32 (.node 16 (.node 8 (.node 4 (.node 2 (.node 1 (.leaf 507237748965865472)
 (.leaf 507644189711064896))
 (.node 1 (.leaf 507751147700725760)
 (.leaf 508109639502812416)))
 (.node 2 (.node 1 (.leaf 508224087658779456)
 (.leaf 508624312810942912))
 (.node 1 (.leaf 508710662862899072)
 (.leaf 508832638096893824))))
 (.node 4 (.node 2 (.node 1 (.leaf 508938960972851328)
 (.leaf 509011529358896576))
 (.node 1 (.leaf 509535979546974912)
 (.leaf 510256991348229440)))
 (.node 2 (.node 1 (.leaf 511178193804377536)
 (.leaf 511364545231094400))
 (.node 1 (.leaf 511400265541528000)
 (.leaf 511668294893964288)))))
 (.node 8 (.node 4 (.node 2 (.node 1 (.leaf 511800060400180224)
 (.leaf 511903480289279616))
 (.node 1 (.leaf 511904607120333696)
 (.leaf 512076844735039104)))
 (.node 2 (.node 1 (.leaf 513139516434476544)
 (.leaf 513142834949803328))
 (.node 1 (.leaf 513385557747351168)
 (.leaf 513401951917976256))))
 (.node 4 (.node 2 (.node 1 (.leaf 513737041364268288)
 (.leaf 513900029654367360))
 (.node 1 (.leaf 513908174136567872)
 (.leaf 513983654594128704)))
 (.node 2 (.node 1 (.leaf 514147751062941312)
 (.leaf 514569751192429824))
 (.node 1 (.leaf 515315736032236160)
 (.leaf 515513133892455680))))))
 (.node 16 (.node 8 (.node 4 (.node 2 (.node 1 (.leaf 515707134343596480)
 (.leaf 515993845652285056))
 (.node 1 (.leaf 516291519979029248)
 (.leaf 516483719807108608)))
 (.node 2 (.node 1 (.leaf 517159802617313280)
 (.leaf 517359884215565504))
 (.node 1 (.leaf 517482545125078848)
 (.leaf 517672011371734016))))
 (.node 4 (.node 2 (.node 1 (.leaf 517717839084861056)
 (.leaf 517772776103114752))
 (.node 1 (.leaf 517892703534866624)
 (.leaf 518806964643874688)))
 (.node 2 (.node 1 (.leaf 518808648148644096)
 (.leaf 518936938250055936))
 (.node 1 (.leaf 519068201959638016)
 (.leaf 519101802298860096)))))
 (.node 8 (.node 4 (.node 2 (.node 1 (.leaf 519367045488655872)
 (.leaf 520340167584314304))
 (.node 1 (.leaf 520526603159115904)
 (.leaf 520620298833091392)))
 (.node 2 (.node 1 (.leaf 521150407843488448)
 (.leaf 521580115103552640))
 (.node 1 (.leaf 522239580346728576)
 (.leaf 522308414145523904))))
 (.node 4 (.node 2 (.node 1 (.leaf 522731399362436416)
 (.leaf 522894100558989952))
 (.node 1 (.leaf 523548581109158528)
 (.leaf 523691417740332864)))
 (.node 2 (.node 1 (.leaf 524209607878606208)
 (.leaf 524214795847636544))
 (.node 1 (.leaf 524344548447255168)
 (.leaf 524347816006334336)))))))
 (.node 32 (.node 16 (.node 8 (.node 4 (.node 2 (.node 1 (.leaf 524966783567745344)
 (.leaf 525096778810739584))
 (.node 1 (.leaf 525481756612878528)
 (.leaf 526021167112403200)))
 (.node 2 (.node 1 (.leaf 526374835384843072)
 (.leaf 526472379127182592))
 (.node 1 (.leaf 526478441474751296)
 (.leaf 527293165722778176))))
 (.node 4 (.node 2 (.node 1 (.leaf 527309481581548992)
 (.leaf 527550150643185408))
 (.node 1 (.leaf 527680305568376960)
 (.leaf 528351549881449216)))
 (.node 2 (.node 1 (.leaf 528436812220960320)
 (.leaf 528547425165406784))
 (.node 1 (.leaf 528683102841027584)
 (.leaf 528826861311058304)))))
 (.node 8 (.node 4 (.node 2 (.node 1 (.leaf 529123734595139328)
 (.leaf 529791416524420992))
 (.node 1 (.leaf 529945162761506624)
 (.leaf 530297409891537984)))
 (.node 2 (.node 1 (.leaf 530304627152627584)
 (.leaf 530486826475971136))
 (.node 1 (.leaf 530850315998600192)
 (.leaf 530893930820471232))))
 (.node 4 (.node 2 (.node 1 (.leaf 531321271858916416)
 (.leaf 531419066082303680))
 (.node 1 (.leaf 532328357182020096)
 (.leaf 532330823621750912)))
 (.node 2 (.node 1 (.leaf 532551249390395520)
 (.leaf 533235836233733952))
 (.node 1 (.leaf 533265008399630592)
 (.leaf 534166177265701376))))))
 (.node 16 (.node 8 (.node 4 (.node 2 (.node 1 (.leaf 534196743248090560)
 (.leaf 534298271659485824))
 (.node 1 (.leaf 534367572275471744)
 (.leaf 534483400308724736)))
 (.node 2 (.node 1 (.leaf 534509528031447744)
 (.leaf 535055597701090112))
 (.node 1 (.leaf 535467272734495616)
 (.leaf 535553759496627008))))
 (.node 4 (.node 2 (.node 1 (.leaf 535711781791518656)
 (.leaf 535814137956755520))
 (.node 1 (.leaf 536016175740954112)
 (.leaf 536434943225155648)))
 (.node 2 (.node 1 (.leaf 536479439015407744)
 (.leaf 536748897988121280))
 (.node 1 (.leaf 536890028369820416)
 (.leaf 536991574119328768)))))
 (.node 8 (.node 4 (.node 2 (.node 1 (.leaf 537161091433844160)
 (.leaf 537175204087445056))
 (.node 1 (.leaf 537735145878401472)
 (.leaf 537880121212911424)))
 (.node 2 (.node 1 (.leaf 537884385609877504)
 (.leaf 537985656718566848))
 (.node 1 (.leaf 538302015461817600)
 (.leaf 538533632283339648))))
 (.node 4 (.node 2 (.node 1 (.leaf 538695497100579712)
 (.leaf 538848267684593024))
 (.node 1 (.leaf 538859883622406528)
 (.leaf 539667948283014784)))
 (.node 2 (.node 1 (.leaf 539860753429340992)
 (.leaf 540064116456669696))
 (.node 1 (.leaf 540236376275470464)
 (.leaf 540293640815523136)))))))))
 (.node 128 (.node 64 (.node 32 (.node 16 (.node 8 (.node 4 (.node 2 (.node 1 (.leaf 540357677094994944)
 (.leaf 540684146284766272))
 (.node 1 (.leaf 541635015706652992)
 (.leaf 541704573765600960)))
 (.node 2 (.node 1 (.leaf 541713645688167488)
 (.leaf 541856878861085760))
 (.node 1 (.leaf 542337878809054528)
 (.leaf 542465514531389056))))
 (.node 4 (.node 2 (.node 1 (.leaf 542709694599799936)
 (.leaf 542749758460654912))
 (.node 1 (.leaf 542943594165890112)
 (.leaf 543204296115745472)))
 (.node 2 (.node 1 (.leaf 543464625461759360)
 (.leaf 543843503329337600))
 (.node 1 (.leaf 544207845813449856)
 (.leaf 544254272014306112)))))
 (.node 8 (.node 4 (.node 2 (.node 1 (.leaf 544558488231154048)
 (.leaf 544976916298020608))
 (.node 1 (.leaf 546089828601743424)
 (.leaf 546168610121114560)))
 (.node 2 (.node 1 (.leaf 546347244509068608)
 (.leaf 546614296061143744))
 (.node 1 (.leaf 546648723814313408)
 (.leaf 546867289823533248))))
 (.node 4 (.node 2 (.node 1 (.leaf 546877454316094656)
 (.leaf 547271127052311616))
 (.node 1 (.leaf 547389121133450752)
 (.leaf 547536887467601280)))
 (.node 2 (.node 1 (.leaf 547540018084171136)
 (.leaf 547561000052334848))
 (.node 1 (.leaf 547586931912735552)
 (.leaf 547664799169477056))))))
 (.node 16 (.node 8 (.node 4 (.node 2 (.node 1 (.leaf 547802178036191680)
 (.leaf 547855647080526144))
 (.node 1 (.leaf 548421709953666560)
 (.leaf 548574092832019072)))
 (.node 2 (.node 1 (.leaf 548574930429410112)
 (.leaf 548662001179436096))
 (.node 1 (.leaf 548992712373266176)
 (.leaf 549209090507237824))))
 (.node 4 (.node 2 (.node 1 (.leaf 549544896949401344)
 (.leaf 549574886751460224))
 (.node 1 (.leaf 550236477977987904)
 (.leaf 550363636754267328)))
 (.node 2 (.node 1 (.leaf 550506239182912448)
 (.leaf 550580242694118656))
 (.node 1 (.leaf 550658649256935168)
 (.leaf 550977021826352064)))))
 (.node 8 (.node 4 (.node 2 (.node 1 (.leaf 550977221162354176)
 (.leaf 551493102398398016))
 (.node 1 (.leaf 551636066164568832)
 (.leaf 551665350400494208)))
 (.node 2 (.node 1 (.leaf 551943593885656512)
 (.leaf 552089576212874944))
 (.node 1 (.leaf 552140601095396096)
 (.leaf 552232892821509440))))
 (.node 4 (.node 2 (.node 1 (.leaf 552559795798342144)
 (.leaf 552798807292533568))
 (.node 1 (.leaf 553390792100443520)
 (.leaf 553506216749860288)))
 (.node 2 (.node 1 (.leaf 553579721882951040)
 (.leaf 554103930472431616))
 (.node 1 (.leaf 554139826503702464)
 (.leaf 554262215285736512)))))))
 (.node 32 (.node 16 (.node 8 (.node 4 (.node 2 (.node 1 (.leaf 554419793284010560)
 (.leaf 554825163384460224))
 (.node 1 (.leaf 555468447212977088)
 (.leaf 555555185252129344)))
 (.node 2 (.node 1 (.leaf 555741853178189248)
 (.leaf 555803448794151616))
 (.node 1 (.leaf 556084144737201920)
 (.leaf 556099236510358464))))
 (.node 4 (.node 2 (.node 1 (.leaf 556186073049123136)
 (.leaf 556216634980671872))
 (.node 1 (.leaf 556272923147670016)
 (.leaf 556423310934794688)))
 (.node 2 (.node 1 (.leaf 556597098790366016)
 (.leaf 556663174040803136))
 (.node 1 (.leaf 556741274349401856)
 (.leaf 557106115877791616)))))
 (.node 8 (.node 4 (.node 2 (.node 1 (.leaf 557599901116167040)
 (.leaf 557843940631722944))
 (.node 1 (.leaf 557853276465680256)
 (.leaf 557884940307692480)))
 (.node 2 (.node 1 (.leaf 558110490982505280)
 (.leaf 558250792991061504))
 (.node 1 (.leaf 558459175052320960)
 (.leaf 558484518726341440))))
 (.node 4 (.node 2 (.node 1 (.leaf 559001178658903232)
 (.leaf 559111095981940480))
 (.node 1 (.leaf 559296113355279424)
 (.leaf 559322150226838976)))
 (.node 2 (.node 1 (.leaf 559657098661208704)
 (.leaf 559739622756304576))
 (.node 1 (.leaf 559767741009063680)
 (.leaf 559811529042438592))))))
 (.node 16 (.node 8 (.node 4 (.node 2 (.node 1 (.leaf 559855763405983936)
 (.leaf 559974116713568960))
 (.node 1 (.leaf 560316195730587648)
 (.leaf 560445610450081216)))
 (.node 2 (.node 1 (.leaf 560696775688590592)
 (.leaf 560816268144763008))
 (.node 1 (.leaf 560959480080659456)
 (.leaf 561166752356155392))))
 (.node 4 (.node 2 (.node 1 (.leaf 561224791982320768)
 (.leaf 561282817692572352))
 (.node 1 (.leaf 561516738213546624)
 (.leaf 561623711206589120)))
 (.node 2 (.node 1 (.leaf 562364425212617600)
 (.leaf 562425208397292416))
 (.node 1 (.leaf 562889743621552896)
 (.leaf 563094436771722240)))))
 (.node 8 (.node 4 (.node 2 (.node 1 (.leaf 563191621451255936)
 (.leaf 563296035976917312))
 (.node 1 (.leaf 563659904048867392)
 (.leaf 563665039468933248)))
 (.node 2 (.node 1 (.leaf 563695722996344896)
 (.leaf 563696579694298176))
 (.node 1 (.leaf 564473989488790528)
 (.leaf 564623222590692864))))
 (.node 4 (.node 2 (.node 1 (.leaf 564636569981398912)
 (.leaf 564859595009176960))
 (.node 1 (.leaf 564900116297122304)
 (.leaf 565090565232099200)))
 (.node 2 (.node 1 (.leaf 565095938172897344)
 (.leaf 565179529250374272))
 (.node 1 (.leaf 565503348814621120)
 (.leaf 565907641122145856))))))))
 (.node 64 (.node 32 (.node 16 (.node 8 (.node 4 (.node 2 (.node 1 (.leaf 565910373467052544)
 (.leaf 565956396128607296))
 (.node 1 (.leaf 566066346868761664)
 (.leaf 566283727599256512)))
 (.node 2 (.node 1 (.leaf 566379618148083776)
 (.leaf 566718354585628032))
 (.node 1 (.leaf 566858722533818496)
 (.leaf 566947239198114112))))
 (.node 4 (.node 2 (.node 1 (.leaf 566984262001724608)
 (.leaf 567118724874745600))
 (.node 1 (.leaf 567478629524356032)
 (.leaf 568005107412706432)))
 (.node 2 (.node 1 (.leaf 568031454579087232)
 (.leaf 568352357572964416))
 (.node 1 (.leaf 568692213219827072)
 (.leaf 568805691560662912)))))
 (.node 8 (.node 4 (.node 2 (.node 1 (.leaf 568816655769411264)
 (.leaf 568839922365557184))
 (.node 1 (.leaf 568900272825828096)
 (.leaf 568934210673679616)))
 (.node 2 (.node 1 (.leaf 569139739151948288)
 (.leaf 569165118775743680))
 (.node 1 (.leaf 569367476347070848)
 (.leaf 569417017170800576))))
 (.node 4 (.node 2 (.node 1 (.leaf 569431325481378304)
 (.leaf 569609176133940608))
 (.node 1 (.leaf 569630953822031424)
 (.leaf 569698122289692224)))
 (.node 2 (.node 1 (.leaf 569779952903615168)
 (.leaf 569834268182651776))
 (.node 1 (.leaf 569876056270979456)
 (.leaf 569972616604149376))))))
 (.node 16 (.node 8 (.node 4 (.node 2 (.node 1 (.leaf 570022234538940672)
 (.leaf 570095045476666496))
 (.node 1 (.leaf 570257601947057152)
 (.leaf 570410191729311616)))
 (.node 2 (.node 1 (.leaf 570588348111455552)
 (.leaf 570944827824027136))
 (.node 1 (.leaf 571098297876062784)
 (.leaf 571123151189218816))))
 (.node 4 (.node 2 (.node 1 (.leaf 571212333756648320)
 (.leaf 571536022211312576))
 (.node 1 (.leaf 571846372305002112)
 (.leaf 571906766988226176)))
 (.node 2 (.node 1 (.leaf 572002391789503616)
 (.leaf 572015603800001536))
 (.node 1 (.leaf 572064885336250944)
 (.leaf 572238589138209280)))))
 (.node 8 (.node 4 (.node 2 (.node 1 (.leaf 572614251866692416)
 (.leaf 572946764227255616))
 (.node 1 (.leaf 573183103837550080)
 (.leaf 573432600787869504)))
 (.node 2 (.node 1 (.leaf 573877804235516736)
 (.leaf 574085096967440896))
 (.node 1 (.leaf 574133795722013760)
 (.leaf 574222727465920512))))
 (.node 4 (.node 2 (.node 1 (.leaf 574342512619863744)
 (.leaf 574376925382612288))
 (.node 1 (.leaf 574542710914877440)
 (.leaf 574729646259880576)))
 (.node 2 (.node 1 (.leaf 574834065108044864)
 (.leaf 575060387113581760))
 (.node 1 (.leaf 575150184492033600)
 (.leaf 575364247385716672)))))))
 (.node 32 (.node 16 (.node 8 (.node 4 (.node 2 (.node 1 (.leaf 575410798434955200)
 (.leaf 575533837626377024))
 (.node 1 (.leaf 575689263304036160)
 (.leaf 575849733095945984)))
 (.node 2 (.node 1 (.leaf 576124357607149504)
 (.leaf 576138881597194880))
 (.node 1 (.leaf 576859001384342912)
 (.leaf 576949079621727104))))
 (.node 4 (.node 2 (.node 1 (.leaf 577336091859442432)
 (.leaf 577580021253961088))
 (.node 1 (.leaf 577785280849463424)
 (.leaf 577824982646440960)))
 (.node 2 (.node 1 (.leaf 578021181218578304)
 (.leaf 578498781234729728))
 (.node 1 (.leaf 578788191909890432)
 (.leaf 579311258873813632)))))
 (.node 8 (.node 4 (.node 2 (.node 1 (.leaf 579337707402349696)
 (.leaf 579683958095847040))
 (.node 1 (.leaf 579855159756996224)
 (.leaf 579981908255272192)))
 (.node 2 (.node 1 (.leaf 580140352799120000)
 (.leaf 580150398017780736))
 (.node 1 (.leaf 580338864087878784)
 (.leaf 580835779385397888))))
 (.node 4 (.node 2 (.node 1 (.leaf 580926478608416000)
 (.leaf 580968363684101888))
 (.node 1 (.leaf 580997718798006656)
 (.leaf 581198661264027136)))
 (.node 2 (.node 1 (.leaf 581289417152122880)
 (.leaf 581334090660062592))
 (.node 1 (.leaf 581340191352422144)
 (.leaf 581706916523709312))))))
 (.node 16 (.node 8 (.node 4 (.node 2 (.node 1 (.leaf 581711259154755200)
 (.leaf 581834250165964160))
 (.node 1 (.leaf 581865749562240000)
 (.leaf 582441579963299712)))
 (.node 2 (.node 1 (.leaf 582470534137038848)
 (.leaf 582619286438716032))
 (.node 1 (.leaf 582981707783146112)
 (.leaf 583055199595911552))))
 (.node 4 (.node 2 (.node 1 (.leaf 583139238600305152)
 (.leaf 583195518654291328))
 (.node 1 (.leaf 583224951767249280)
 (.leaf 583315095267003392)))
 (.node 2 (.node 1 (.leaf 583471815100639488)
 (.leaf 583667907383132032))
 (.node 1 (.leaf 583887411113378048)
 (.leaf 584109889884680192)))))
 (.node 8 (.node 4 (.node 2 (.node 1 (.leaf 584212689386380416)
 (.leaf 584322712410879744))
 (.node 1 (.leaf 584528321481438464)
 (.leaf 584657366481243136)))
 (.node 2 (.node 1 (.leaf 584727895497635840)
 (.leaf 584839972687647488))
 (.node 1 (.leaf 585108851607819648)
 (.leaf 585631234719228288))))
 (.node 4 (.node 2 (.node 1 (.leaf 585852531002296832)
 (.leaf 585873246324952448))
 (.node 1 (.leaf 586561964157764608)
 (.leaf 586581577422805120)))
 (.node 2 (.node 1 (.leaf 586712100160399744)
 (.leaf 586774129827792512))
 (.node 1 (.leaf 586916004027777024)
 (.leaf 587005559131127936))))))))))
 (.node 256 (.node 128 (.node 64 (.node 32 (.node 16 (.node 8 (.node 4 (.node 2 (.node 1 (.leaf 587194894886240640)
 (.leaf 587219508894436736))
 (.node 1 (.leaf 587385447864093056)
 (.leaf 587702107142513792)))
 (.node 2 (.node 1 (.leaf 588855705625287424)
 (.leaf 588896468910179968))
 (.node 1 (.leaf 589028481574292224)
 (.leaf 589057662831428736))))
 (.node 4 (.node 2 (.node 1 (.leaf 589290887210795136)
 (.leaf 589458827329287936))
 (.node 1 (.leaf 589846976740191616)
 (.leaf 590208825797676288)))
 (.node 2 (.node 1 (.leaf 590809376693035904)
 (.leaf 591077892089977216))
 (.node 1 (.leaf 591616613423580800)
 (.leaf 591889243479478144)))))
 (.node 8 (.node 4 (.node 2 (.node 1 (.leaf 591945943561007872)
 (.leaf 592007921955264512))
 (.node 1 (.leaf 592785720511514624)
 (.leaf 593038202412544384)))
 (.node 2 (.node 1 (.leaf 593240893144136832)
 (.leaf 593470282121150464))
 (.node 1 (.leaf 593964716876681856)
 (.leaf 593995305628741248))))
 (.node 4 (.node 2 (.node 1 (.leaf 594325453460023424)
 (.leaf 595115011587136000))
 (.node 1 (.leaf 596275828016212224)
 (.leaf 596673775649258112)))
 (.node 2 (.node 1 (.leaf 596788515300887552)
 (.leaf 597319023347636736))
 (.node 1 (.leaf 597339057211625600)
 (.leaf 597749656018782336))))))
 (.node 16 (.node 8 (.node 4 (.node 2 (.node 1 (.leaf 598003784962868736)
 (.leaf 598322284873313280))
 (.node 1 (.leaf 598401727664241536)
 (.leaf 598602618021147136)))
 (.node 2 (.node 1 (.leaf 598962599765385856)
 (.leaf 599025210654123136))
 (.node 1 (.leaf 599102022251162624)
 (.leaf 599162789024678784))))
 (.node 4 (.node 2 (.node 1 (.leaf 599195045284381440)
 (.leaf 599197953096793344))
 (.node 1 (.leaf 599342833949941376)
 (.leaf 599482015546959744)))
 (.node 2 (.node 1 (.leaf 599489497287620992)
 (.leaf 599530557795012992))
 (.node 1 (.leaf 599570321260802176)
 (.leaf 599716258195896832)))))
 (.node 8 (.node 4 (.node 2 (.node 1 (.leaf 600724967688653056)
 (.leaf 600832123970099200))
 (.node 1 (.leaf 601352398426269696)
 (.leaf 601609003107134848)))
 (.node 2 (.node 1 (.leaf 601649610985052672)
 (.leaf 601840308892555776))
 (.node 1 (.leaf 602116842048850688)
 (.leaf 602554170815122432))))
 (.node 4 (.node 2 (.node 1 (.leaf 603180728988808576)
 (.leaf 603328883544646272))
 (.node 1 (.leaf 603480687119564160)
 (.leaf 603502593439545728)))
 (.node 2 (.node 1 (.leaf 603924955640534656)
 (.leaf 604592972495096320))
 (.node 1 (.leaf 604662887844578560)
 (.leaf 605108194583221760)))))))
 (.node 32 (.node 16 (.node 8 (.node 4 (.node 2 (.node 1 (.leaf 605283789918594560)
 (.leaf 605283789918594688))
 (.node 1 (.leaf 605283789918594944)
 (.leaf 605958717401732736)))
 (.node 2 (.node 1 (.leaf 606353226066445568)
 (.leaf 606436223927614464))
 (.node 1 (.leaf 606458046476659840)
 (.leaf 606938459721138816))))
 (.node 4 (.node 2 (.node 1 (.leaf 607080774214457600)
 (.leaf 607222729618541952))
 (.node 1 (.leaf 607263554476861568)
 (.leaf 607285217276304512)))
 (.node 2 (.node 1 (.leaf 607537680733266176)
 (.leaf 607641641598030080))
 (.node 1 (.leaf 607923145913369344)
 (.leaf 607934023524759168)))))
 (.node 8 (.node 4 (.node 2 (.node 1 (.leaf 608179356782383616)
 (.leaf 608238191175721600))
 (.node 1 (.leaf 608512140281269376)
 (.leaf 608782548626395904)))
 (.node 2 (.node 1 (.leaf 609282283411239808)
 (.leaf 609396830204924032))
 (.node 1 (.leaf 609464479273787904)
 (.leaf 609495381001086848))))
 (.node 4 (.node 2 (.node 1 (.leaf 609511114638991360)
 (.leaf 609543469948214656))
 (.node 1 (.leaf 609591328391172992)
 (.leaf 609658024575186176)))
 (.node 2 (.node 1 (.leaf 609712408411970304)
 (.leaf 609727689578279040))
 (.node 1 (.leaf 610053041709665536)
 (.leaf 610093979037490560))))))
 (.node 16 (.node 8 (.node 4 (.node 2 (.node 1 (.leaf 610185262520333824)
 (.leaf 610187249204255488))
 (.node 1 (.leaf 610193883436293376)
 (.leaf 610853783058505600)))
 (.node 2 (.node 1 (.leaf 610935514410285696)
 (.leaf 610983114602742272))
 (.node 1 (.leaf 611064440210099456)
 (.leaf 611260454667544448))))
 (.node 4 (.node 2 (.node 1 (.leaf 611363540109071360)
 (.leaf 611696131497750272))
 (.node 1 (.leaf 612419924661124608)
 (.leaf 612725169361519872)))
 (.node 2 (.node 1 (.leaf 612741671818356224)
 (.leaf 614571069748005632))
 (.node 1 (.leaf 614750353523605248)
 (.leaf 614770640435451520)))))
 (.node 8 (.node 4 (.node 2 (.node 1 (.leaf 614971143611067648)
 (.leaf 614997105105722880))
 (.node 1 (.leaf 615185309775334144)
 (.leaf 615315860291084032)))
 (.node 2 (.node 1 (.leaf 615648592586283904)
 (.leaf 616120323700411264))
 (.node 1 (.leaf 616520399768211200)
 (.leaf 616520436954655360))))
 (.node 4 (.node 2 (.node 1 (.leaf 616901685417121152)
 (.leaf 616908747372578432))
 (.node 1 (.leaf 616909405951352832)
 (.leaf 617119034335019008)))
 (.node 2 (.node 1 (.leaf 617521369385967872)
 (.leaf 617590793198392192))
 (.node 1 (.leaf 618555857413767552)
 (.leaf 618672756397264000))))))))
 (.node 64 (.node 32 (.node 16 (.node 8 (.node 4 (.node 2 (.node 1 (.leaf 618998497642374016)
 (.leaf 619430181830059904))
 (.node 1 (.leaf 619456638851073536)
 (.leaf 619710000620153728)))
 (.node 2 (.node 1 (.leaf 619950941490888832)
 (.leaf 620253966731597440))
 (.node 1 (.leaf 620321779480826496)
 (.leaf 620372308251548672))))
 (.node 4 (.node 2 (.node 1 (.leaf 620390959476783488)
 (.leaf 620444493036869248))
 (.node 1 (.leaf 620501876408798976)
 (.leaf 620584466957039488)))
 (.node 2 (.node 1 (.leaf 620621196343157760)
 (.leaf 620981876214335360))
 (.node 1 (.leaf 621175827665496832)
 (.leaf 621640942749006976)))))
 (.node 8 (.node 4 (.node 2 (.node 1 (.leaf 621676826074384256)
 (.leaf 621773750253906176))
 (.node 1 (.leaf 621826267325713280)
 (.leaf 622155333659520256)))
 (.node 2 (.node 1 (.leaf 622189025072674816)
 (.leaf 622315697399757568))
 (.node 1 (.leaf 622450954700191616)
 (.leaf 622689937225330176))))
 (.node 4 (.node 2 (.node 1 (.leaf 622816538227648256)
 (.leaf 623500293851663744))
 (.node 1 (.leaf 623836095951204480)
 (.leaf 624176459466795136)))
 (.node 2 (.node 1 (.leaf 624287257185635072)
 (.leaf 624504733703086848))
 (.node 1 (.leaf 624677204230059392)
 (.leaf 624745740861235456))))))
 (.node 16 (.node 8 (.node 4 (.node 2 (.node 1 (.leaf 624757119220557952)
 (.leaf 626161730693405824))
 (.node 1 (.leaf 626283799221973632)
 (.leaf 627270366214724992)))
 (.node 2 (.node 1 (.leaf 627411203425572736)
 (.leaf 627545977080453632))
 (.node 1 (.leaf 627575275471727360)
 (.leaf 627972913004177152))))
 (.node 4 (.node 2 (.node 1 (.leaf 628301662339164672)
 (.leaf 628572750638254080))
 (.node 1 (.leaf 628638370172655232)
 (.leaf 628772469512223360)))
 (.node 2 (.node 1 (.leaf 629128330097367936)
 (.leaf 629511460119366784))
 (.node 1 (.leaf 629627317132125440)
 (.leaf 629641714551053312)))))
 (.node 8 (.node 4 (.node 2 (.node 1 (.leaf 630065810493491712)
 (.leaf 630392172553010816))
 (.node 1 (.leaf 630434893995069440)
 (.leaf 631612291279955840)))
 (.node 2 (.node 1 (.leaf 631862132041326080)
 (.leaf 632031159569301376))
 (.node 1 (.leaf 632581285057048192)
 (.leaf 632737354424763904))))
 (.node 4 (.node 2 (.node 1 (.leaf 632954350999092352)
 (.leaf 633111395807456384))
 (.node 1 (.leaf 633337298798757760)
 (.leaf 633411311503872256)))
 (.node 2 (.node 1 (.leaf 634376563051940352)
 (.leaf 635060935695453952))
 (.node 1 (.leaf 635256880306366208)
 (.leaf 635338815655096064)))))))
 (.node 32 (.node 16 (.node 8 (.node 4 (.node 2 (.node 1 (.leaf 635351667507521920)
 (.leaf 635812946134177920))
 (.node 1 (.leaf 636265415652661760)
 (.leaf 636315143215706752)))
 (.node 2 (.node 1 (.leaf 636482319494389760)
 (.leaf 636546253336820736))
 (.node 1 (.leaf 636614470018332800)
 (.leaf 636732569650233856))))
 (.node 4 (.node 2 (.node 1 (.leaf 636819417388561792)
 (.leaf 637160078011584640))
 (.node 1 (.leaf 637265427938610688)
 (.leaf 637273796613651200)))
 (.node 2 (.node 1 (.leaf 637495105541937792)
 (.leaf 637599457408078720))
 (.node 1 (.leaf 637777712728001664)
 (.leaf 638247848201856768)))))
 (.node 8 (.node 4 (.node 2 (.node 1 (.leaf 638280104449842560)
 (.leaf 638907384508512768))
 (.node 1 (.leaf 639092726730405888)
 (.leaf 639248488633758592)))
 (.node 2 (.node 1 (.leaf 639325028372919552)
 (.leaf 639422663736215424))
 (.node 1 (.leaf 639631100269655680)
 (.leaf 639812069141094528))))
 (.node 4 (.node 2 (.node 1 (.leaf 640118068162106624)
 (.leaf 640150060154880768))
 (.node 1 (.leaf 640551245539909632)
 (.leaf 640684435252581376)))
 (.node 2 (.node 1 (.leaf 640815666980789120)
 (.leaf 640831915938387200))
 (.node 1 (.leaf 640877812267556224)
 (.leaf 640997023849975552))))))
 (.node 16 (.node 8 (.node 4 (.node 2 (.node 1 (.leaf 641091558382406528)
 (.leaf 641631536843411328))
 (.node 1 (.leaf 642883588474299904)
 (.leaf 642952698290930048)))
 (.node 2 (.node 1 (.leaf 643498360898791936)
 (.leaf 643738751219221632))
 (.node 1 (.leaf 643796018711839360)
 (.leaf 644419623787185664))))
 (.node 4 (.node 2 (.node 1 (.leaf 644450578119635072)
 (.leaf 644543929529735296))
 (.node 1 (.leaf 644616823501264256)
 (.leaf 645080744991669248)))
 (.node 2 (.node 1 (.leaf 645185254463907584)
 (.leaf 645238157876253184))
 (.node 1 (.leaf 645282154125655680)
 (.leaf 645934441764399104)))))
 (.node 8 (.node 4 (.node 2 (.node 1 (.leaf 646105443461339648)
 (.leaf 646255734087549568))
 (.node 1 (.leaf 646577615307048704)
 (.leaf 646687712130413568)))
 (.node 2 (.node 1 (.leaf 646737879225738112)
 (.leaf 646931993176349312))
 (.node 1 (.leaf 647209316828193664)
 (.leaf 647999350335222784))))
 (.node 4 (.node 2 (.node 1 (.leaf 648886173830961408)
 (.leaf 648929138473516416))
 (.node 1 (.leaf 649283428602381440)
 (.leaf 649307277983097472)))
 (.node 2 (.node 1 (.leaf 649579373667010688)
 (.leaf 650091447529676288))
 (.node 1 (.leaf 650242849614520448)
 (.leaf 650809471042997632)))))))))
 (.node 128 (.node 64 (.node 32 (.node 16 (.node 8 (.node 4 (.node 2 (.node 1 (.leaf 650986268121757952)
 (.leaf 651027301940937344))
 (.node 1 (.leaf 651089519467699328)
 (.leaf 651126506141778944)))
 (.node 2 (.node 1 (.leaf 651167778112780544)
 (.leaf 651216859836550912))
 (.node 1 (.leaf 651341375439550080)
 (.leaf 652221805033821568))))
 (.node 4 (.node 2 (.node 1 (.leaf 652384383864917376)
 (.leaf 652480982412994688))
 (.node 1 (.leaf 652499491091076096)
 (.leaf 652629131622201472)))
 (.node 2 (.node 1 (.leaf 652809302981325952)
 (.leaf 652896276047834112))
 (.node 1 (.leaf 653102579058878720)
 (.leaf 653197118796021888)))))
 (.node 8 (.node 4 (.node 2 (.node 1 (.leaf 653256793663947264)
 (.leaf 653633620135028864))
 (.node 1 (.leaf 654115652434343680)
 (.leaf 654372755113973632)))
 (.node 2 (.node 1 (.leaf 654452370718453888)
 (.leaf 654612426872319872))
 (.node 1 (.leaf 654761577872430976)
 (.leaf 655565212000991360))))
 (.node 4 (.node 2 (.node 1 (.leaf 655815257693643264)
 (.leaf 655839195526170624))
 (.node 1 (.leaf 656241519486236416)
 (.leaf 656665772274032640)))
 (.node 2 (.node 1 (.leaf 657055173220288256)
 (.leaf 657805483369818368))
 (.node 1 (.leaf 657879223412088576)
 (.leaf 657882844200903936))))))
 (.node 16 (.node 8 (.node 4 (.node 2 (.node 1 (.leaf 658067101050569984)
 (.leaf 658365428453110144))
 (.node 1 (.leaf 658507298654730880)
 (.leaf 658872228739799552)))
 (.node 2 (.node 1 (.leaf 659117325114150400)
 (.leaf 659516920549162880))
 (.node 1 (.leaf 660444283022792704)
 (.leaf 660664278134628736))))
 (.node 4 (.node 2 (.node 1 (.leaf 660760347292071552)
 (.leaf 660988183685065344))
 (.node 1 (.leaf 661428018165749120)
 (.leaf 661694061807579648)))
 (.node 2 (.node 1 (.leaf 662958224561690880)
 (.leaf 663694711444573184))
 (.node 1 (.leaf 663710168115197952)
 (.leaf 664198687544216704)))))
 (.node 8 (.node 4 (.node 2 (.node 1 (.leaf 664604671196530048)
 (.leaf 664614175641686144))
 (.node 1 (.leaf 664918288750556544)
 (.leaf 664937160756109440)))
 (.node 2 (.node 1 (.leaf 664971324878688000)
 (.leaf 665310490377154048))
 (.node 1 (.leaf 665310548242600704)
 (.leaf 665457050471246592))))
 (.node 4 (.node 2 (.node 1 (.leaf 666342744237650816)
 (.leaf 666365040770895872))
 (.node 1 (.leaf 666811108142130432)
 (.leaf 667025767441748352)))
 (.node 2 (.node 1 (.leaf 667352176995373568)
 (.leaf 667505079231428224))
 (.node 1 (.leaf 667587306892403072)
 (.leaf 667723070005253888)))))))
 (.node 32 (.node 16 (.node 8 (.node 4 (.node 2 (.node 1 (.leaf 668947745833174784)
 (.leaf 668986358381093248))
 (.node 1 (.leaf 669061517110170752)
 (.leaf 669347972150787200)))
 (.node 2 (.node 1 (.leaf 669422032295805184)
 (.leaf 669457238496771968))
 (.node 1 (.leaf 669590984848165376)
 (.leaf 669638382579915776))))
 (.node 4 (.node 2 (.node 1 (.leaf 669678764932988928)
 (.leaf 669686120581881600))
 (.node 1 (.leaf 669787518729891840)
 (.leaf 669799696400372224)))
 (.node 2 (.node 1 (.leaf 670094747382671232)
 (.leaf 670649855384986624))
 (.node 1 (.leaf 670749854331302400)
 (.leaf 670895878132923776)))))
 (.node 8 (.node 4 (.node 2 (.node 1 (.leaf 671392282701115648)
 (.leaf 671497529287499648))
 (.node 1 (.leaf 672266112652527872)
 (.leaf 673064518264612096)))
 (.node 2 (.node 1 (.leaf 673592484740837376)
 (.leaf 673804027790136448))
 (.node 1 (.leaf 674178614334183040)
 (.leaf 674587849016833792))))
 (.node 4 (.node 2 (.node 1 (.leaf 674672602679448832)
 (.leaf 674942665352450048))
 (.node 1 (.leaf 675030563531075968)
 (.leaf 675469317733482496)))
 (.node 2 (.node 1 (.leaf 675664078073940992)
 (.leaf 675708850701820928))
 (.node 1 (.leaf 675721764797988608)
 (.leaf 675999848411404544))))))
 (.node 16 (.node 8 (.node 4 (.node 2 (.node 1 (.leaf 676025151176467200)
 (.leaf 676132131274393856))
 (.node 1 (.leaf 676451025777076352)
 (.leaf 676800256808464896)))
 (.node 2 (.node 1 (.leaf 677063021771444992)
 (.leaf 677095402832456448))
 (.node 1 (.leaf 677322267382638976)
 (.leaf 677636999559560960))))
 (.node 4 (.node 2 (.node 1 (.leaf 677978348166566656)
 (.leaf 677982263820594560))
 (.node 1 (.leaf 678597391485077760)
 (.leaf 679031844867030144)))
 (.node 2 (.node 1 (.leaf 679295842484703616)
 (.leaf 679454200243339776))
 (.node 1 (.leaf 679564128753578496)
 (.leaf 679589297658197376)))))
 (.node 8 (.node 4 (.node 2 (.node 1 (.leaf 679736416325517952)
 (.leaf 679914793799690496))
 (.node 1 (.leaf 680117218738387072)
 (.leaf 680675950852145920)))
 (.node 2 (.node 1 (.leaf 680925519148900096)
 (.leaf 681151292642328832))
 (.node 1 (.leaf 681939851877588864)
 (.leaf 682138974127566080))))
 (.node 4 (.node 2 (.node 1 (.leaf 682374230731541760)
 (.leaf 682423487368362624))
 (.node 1 (.leaf 682479782627495040)
 (.leaf 682508849810334848)))
 (.node 2 (.node 1 (.leaf 682704299173059072)
 (.leaf 685846562767687168))
 (.node 1 (.leaf 686030355726382336)
 (.leaf 686136979933014144))))))))
 (.node 64 (.node 32 (.node 16 (.node 8 (.node 4 (.node 2 (.node 1 (.leaf 686425605940597248)
 (.leaf 687155414923548928))
 (.node 1 (.leaf 687581321957711488)
 (.leaf 687660895473519232)))
 (.node 2 (.node 1 (.leaf 688636250506350080)
 (.leaf 688957088202200832))
 (.node 1 (.leaf 689013829556940800)
 (.leaf 689162257532026496))))
 (.node 4 (.node 2 (.node 1 (.leaf 689869360940946688)
 (.leaf 690140317293835904))
 (.node 1 (.leaf 690173072339419392)
 (.leaf 690790496559800448)))
 (.node 2 (.node 1 (.leaf 690918296471661568)
 (.leaf 691467454404219136))
 (.node 1 (.leaf 691492303540299136)
 (.leaf 691575429090150272)))))
 (.node 8 (.node 4 (.node 2 (.node 1 (.leaf 691640806606233088)
 (.leaf 691645339918362240))
 (.node 1 (.leaf 691791429046344448)
 (.leaf 691831818268980352)))
 (.node 2 (.node 1 (.leaf 691859993732049920)
 (.leaf 692004857956517504))
 (.node 1 (.leaf 692115555480962944)
 (.leaf 692547960305037696))))
 (.node 4 (.node 2 (.node 1 (.leaf 692550651980355840)
 (.leaf 692656103715157888))
 (.node 1 (.leaf 692724905329599104)
 (.leaf 692764264012190848)))
 (.node 2 (.node 1 (.leaf 692872441198774016)
 (.leaf 693197074122198272))
 (.node 1 (.leaf 693249114002230784)
 (.leaf 693361296892741248))))))
 (.node 16 (.node 8 (.node 4 (.node 2 (.node 1 (.leaf 693471389600375168)
 (.leaf 693730432145295488))
 (.node 1 (.leaf 694374138832318848)
 (.leaf 694817499850669184)))
 (.node 2 (.node 1 (.leaf 694950304931494272)
 (.leaf 695022825528616320))
 (.node 1 (.leaf 695154132309041152)
 (.leaf 695193971082892160))))
 (.node 4 (.node 2 (.node 1 (.leaf 695324780710875392)
 (.leaf 695938285719036672))
 (.node 1 (.leaf 696304810023504768)
 (.leaf 696504284922211072)))
 (.node 2 (.node 1 (.leaf 696959253608978560)
 (.leaf 697043420667778944))
 (.node 1 (.leaf 698109672293233408)
 (.leaf 698116489517986688)))))
 (.node 8 (.node 4 (.node 2 (.node 1 (.leaf 699139242888600960)
 (.leaf 699255080045885824))
 (.node 1 (.leaf 699314691672886528)
 (.leaf 699424285178869120)))
 (.node 2 (.node 1 (.leaf 699461826900272256)
 (.leaf 699800568799049088))
 (.node 1 (.leaf 700087075038200320)
 (.leaf 700973216421008384))))
 (.node 4 (.node 2 (.node 1 (.leaf 700974671923867520)
 (.leaf 701021615023782016))
 (.node 1 (.leaf 701342190586158848)
 (.leaf 701588334053811456)))
 (.node 2 (.node 1 (.leaf 701665599028538624)
 (.leaf 702610428352513792))
 (.node 1 (.leaf 702738225139556608)
 (.leaf 703107662783324672)))))))
 (.node 32 (.node 16 (.node 8 (.node 4 (.node 2 (.node 1 (.leaf 703174595543672320)
 (.leaf 703455740542929664))
 (.node 1 (.leaf 703460670018053760)
 (.leaf 703751921763401216)))
 (.node 2 (.node 1 (.leaf 703939326109369856)
 (.leaf 704009710158286976))
 (.node 1 (.leaf 704022406799150592)
 (.leaf 704194077778711808))))
 (.node 4 (.node 2 (.node 1 (.leaf 704856332336100096)
 (.leaf 704902630790001920))
 (.node 1 (.leaf 706102534329473536)
 (.leaf 707345036656059008)))
 (.node 2 (.node 1 (.leaf 707410172491865216)
 (.leaf 707522901904713344))
 (.node 1 (.leaf 707773432168653056)
 (.leaf 708084482509409792)))))
 (.node 8 (.node 4 (.node 2 (.node 1 (.leaf 708378816730548736)
 (.leaf 708876814346201728))
 (.node 1 (.leaf 708945453353484416)
 (.leaf 709059150434574336)))
 (.node 2 (.node 1 (.leaf 709074395898301184)
 (.leaf 709148102287175552))
 (.node 1 (.leaf 709159920315775104)
 (.leaf 709272932665352832))))
 (.node 4 (.node 2 (.node 1 (.leaf 709760990568464512)
 (.leaf 709851902136795136))
 (.node 1 (.leaf 710019004816894208)
 (.leaf 710922981296467328)))
 (.node 2 (.node 1 (.leaf 710953853838645632)
 (.leaf 711174682393181312))
 (.node 1 (.leaf 711259837337171584)
 (.leaf 711821346711556096))))))
 (.node 16 (.node 8 (.node 4 (.node 2 (.node 1 (.leaf 712498722744445952)
 (.leaf 712574244351396992))
 (.node 1 (.leaf 712815560325098752)
 (.leaf 713020023927035264)))
 (.node 2 (.node 1 (.leaf 713175942894495488)
 (.leaf 713237188867372032))
 (.node 1 (.leaf 713508116163653120)
 (.leaf 713707158342813440))))
 (.node 4 (.node 2 (.node 1 (.leaf 713907546455076736)
 (.leaf 714211819793930496))
 (.node 1 (.leaf 714554912122906880)
 (.leaf 714619905083567616)))
 (.node 2 (.node 1 (.leaf 714686409398810752)
 (.leaf 716021077947686400))
 (.node 1 (.leaf 716157788000770816)
 (.leaf 716226647130531456)))))
 (.node 8 (.node 4 (.node 2 (.node 1 (.leaf 716231358336555520)
 (.leaf 717178562929173888))
 (.node 1 (.leaf 717849609221280896)
 (.leaf 717935169062133504)))
 (.node 2 (.node 1 (.leaf 718013825103692288)
 (.leaf 718019994235623680))
 (.node 1 (.leaf 718254676824253056)
 (.leaf 718841643303480192))))
 (.node 4 (.node 2 (.node 1 (.leaf 718904129794424192)
 (.leaf 719041691098028160))
 (.node 1 (.leaf 719584624069649536)
 (.leaf 720017946391658112)))
 (.node 2 (.node 1 (.leaf 720124617374845952)
 (.leaf 720566811105464064))
 (.node 1 (.leaf 720723209866712448)
 (.leaf 721142239847973632))))))))))))
 (.node 1024 (.node 512 (.node 256 (.node 128 (.node 64 (.node 32 (.node 16 (.node 8 (.node 4 (.node 2 (.node 1 (.leaf 721184744007056384)
 (.leaf 721290224607919616))
 (.node 1 (.leaf 721858140038448000)
 (.leaf 721866343338076160)))
 (.node 2 (.node 1 (.leaf 722684501857000448)
 (.leaf 722910218118997760))
 (.node 1 (.leaf 723065380293968896)
 (.leaf 724148707805715968))))
 (.node 4 (.node 2 (.node 1 (.leaf 724228858706615552)
 (.leaf 724417977877969024))
 (.node 1 (.leaf 724639590328896896)
 (.leaf 725171121478378368)))
 (.node 2 (.node 1 (.leaf 725572964246419200)
 (.leaf 726109747058791552))
 (.node 1 (.leaf 727085934254593408)
 (.leaf 727584284012390400)))))
 (.node 8 (.node 4 (.node 2 (.node 1 (.leaf 727737604169377536)
 (.leaf 727989629427092992))
 (.node 1 (.leaf 727996673650518144)
 (.leaf 728018757785334400)))
 (.node 2 (.node 1 (.leaf 728101442899528960)
 (.leaf 728277941583081216))
 (.node 1 (.leaf 728376595251254016)
 (.leaf 729044217162819584))))
 (.node 4 (.node 2 (.node 1 (.leaf 729562797474505088)
 (.leaf 729593225600976128))
 (.node 1 (.leaf 729651679713947520)
 (.leaf 730261600278701312)))
 (.node 2 (.node 1 (.leaf 730417415703379584)
 (.leaf 730905825776443648))
 (.node 1 (.leaf 731116071845857408)
 (.leaf 731158839269927552))))))
 (.node 16 (.node 8 (.node 4 (.node 2 (.node 1 (.leaf 731744207249741440)
 (.leaf 731860543720271488))
 (.node 1 (.leaf 731952485446423552)
 (.leaf 732523557367492864)))
 (.node 2 (.node 1 (.leaf 732866035936543616)
 (.leaf 733359591868937088))
 (.node 1 (.leaf 733510735838757888)
 (.leaf 733610627930698880))))
 (.node 4 (.node 2 (.node 1 (.leaf 733676107350070656)
 (.leaf 733776921185775872))
 (.node 1 (.leaf 733949165699240192)
 (.leaf 734001139984223104)))
 (.node 2 (.node 1 (.leaf 734300750813976576)
 (.leaf 734477239716605696))
 (.node 1 (.leaf 734563517627657088)
 (.leaf 734563517627657344)))))
 (.node 8 (.node 4 (.node 2 (.node 1 (.leaf 734736457709543936)
 (.leaf 734964317052220672))
 (.node 1 (.leaf 735370906665479936)
 (.leaf 735412373364065024)))
 (.node 2 (.node 1 (.leaf 735495924128943744)
 (.leaf 735533219406285056))
 (.node 1 (.leaf 736515895513911808)
 (.leaf 736819472700818688))))
 (.node 4 (.node 2 (.node 1 (.leaf 736883405115040256)
 (.leaf 737044273842974464))
 (.node 1 (.leaf 737094245168263552)
 (.leaf 737311345599660416)))
 (.node 2 (.node 1 (.leaf 737380787404701056)
 (.leaf 738057687937153408))
 (.node 1 (.leaf 738396554858447488)
 (.leaf 738444180133639808)))))))
 (.node 32 (.node 16 (.node 8 (.node 4 (.node 2 (.node 1 (.leaf 738454984475574784)
 (.leaf 739053868325358208))
 (.node 1 (.leaf 739721430768591616)
 (.leaf 740631434808018560)))
 (.node 2 (.node 1 (.leaf 741089931291727360)
 (.leaf 741532613757249024))
 (.node 1 (.leaf 741622547007071360)
 (.leaf 742013864644364928))))
 (.node 4 (.node 2 (.node 1 (.leaf 742456061444592000)
 (.leaf 742463340964412416))
 (.node 1 (.leaf 742659679732517248)
 (.leaf 743246884364862080)))
 (.node 2 (.node 1 (.leaf 743482938315565568)
 (.leaf 743499154726981376))
 (.node 1 (.leaf 743769597193500032)
 (.leaf 743817351884733568)))))
 (.node 8 (.node 4 (.node 2 (.node 1 (.leaf 743844639176042880)
 (.leaf 744004325318857984))
 (.node 1 (.leaf 744180266320400000)
 (.leaf 745107279277881344)))
 (.node 2 (.node 1 (.leaf 745256968804750592)
 (.leaf 745351775680369792))
 (.node 1 (.leaf 745609841254994816)
 (.leaf 746242234806302976))))
 (.node 4 (.node 2 (.node 1 (.leaf 746505657439087616)
 (.leaf 746592673550490112))
 (.node 1 (.leaf 747010615597034240)
 (.leaf 747514749797715968)))
 (.node 2 (.node 1 (.leaf 747536048289023360)
 (.leaf 747694146903567488))
 (.node 1 (.leaf 747972700484064640)
 (.leaf 747989542312055808))))))
 (.node 16 (.node 8 (.node 4 (.node 2 (.node 1 (.leaf 748564778603050240)
 (.leaf 748863905116048512))
 (.node 1 (.leaf 748944012891919616)
 (.leaf 749952746553306112)))
 (.node 2 (.node 1 (.leaf 749958988685987072)
 (.leaf 750580656755180416))
 (.node 1 (.leaf 750637889080282624)
 (.leaf 751023664921824768))))
 (.node 4 (.node 2 (.node 1 (.leaf 751024489302534656)
 (.leaf 751317286046741504))
 (.node 1 (.leaf 751941865905485568)
 (.leaf 751986717184533888)))
 (.node 2 (.node 1 (.leaf 752235855644424064)
 (.leaf 752296896299153408))
 (.node 1 (.leaf 752319564257141248)
 (.leaf 752458707253769472)))))
 (.node 8 (.node 4 (.node 2 (.node 1 (.leaf 752577927527418496)
 (.leaf 752819809915963136))
 (.node 1 (.leaf 753411018583582336)
 (.leaf 753604657760524416)))
 (.node 2 (.node 1 (.leaf 753843924999819904)
 (.leaf 754141009221751424))
 (.node 1 (.leaf 754736985414952192)
 (.leaf 754893882529779456))))
 (.node 4 (.node 2 (.node 1 (.leaf 754965649057771520)
 (.leaf 755194101675930240))
 (.node 1 (.leaf 755301089350115328)
 (.leaf 755508273017634560)))
 (.node 2 (.node 1 (.leaf 755514903438909184)
 (.leaf 755654632395108096))
 (.node 1 (.leaf 755908660854378624)
 (.leaf 756411750951980160))))))))
 (.node 64 (.node 32 (.node 16 (.node 8 (.node 4 (.node 2 (.node 1 (.leaf 756450433097692160)
 (.leaf 756692075250981504))
 (.node 1 (.leaf 756792537874906752)
 (.leaf 756792676895140096)))
 (.node 2 (.node 1 (.leaf 756881840662560128)
 (.leaf 757254547109387264))
 (.node 1 (.leaf 757397290016477568)
 (.leaf 757622517053986176))))
 (.node 4 (.node 2 (.node 1 (.leaf 757847484753891712)
 (.leaf 758058579734030592))
 (.node 1 (.leaf 758221714994407424)
 (.leaf 758798025975480576)))
 (.node 2 (.node 1 (.leaf 758861759610204928)
 (.leaf 758991046790268544))
 (.node 1 (.leaf 759282014400882560)
 (.leaf 759388491018372224)))))
 (.node 8 (.node 4 (.node 2 (.node 1 (.leaf 759478931758358272)
 (.leaf 759566977369777408))
 (.node 1 (.leaf 759579918649979392)
 (.leaf 760476945033635328)))
 (.node 2 (.node 1 (.leaf 760500021751891712)
 (.leaf 760589286147642624))
 (.node 1 (.leaf 760965978227099904)
 (.leaf 761073051957444736))))
 (.node 4 (.node 2 (.node 1 (.leaf 761355273063217792)
 (.leaf 761602570704920192))
 (.node 1 (.leaf 761641867824888832)
 (.leaf 761664207317978368)))
 (.node 2 (.node 1 (.leaf 761747268579624448)
 (.leaf 761788789124803200))
 (.node 1 (.leaf 761831573393747328)
 (.leaf 761835840904332672))))))
 (.node 16 (.node 8 (.node 4 (.node 2 (.node 1 (.leaf 761852634101924096)
 (.leaf 761865530967233536))
 (.node 1 (.leaf 762250761534304512)
 (.leaf 762586753289101568)))
 (.node 2 (.node 1 (.leaf 762610807733964416)
 (.leaf 763794780248012928))
 (.node 1 (.leaf 764164885623636352)
 (.leaf 764348491435930880))))
 (.node 4 (.node 2 (.node 1 (.leaf 764597028717533952)
 (.leaf 764599293788914048))
 (.node 1 (.leaf 764972912914670208)
 (.leaf 765030020369748096)))
 (.node 2 (.node 1 (.leaf 765308948860782208)
 (.leaf 765347242591802624))
 (.node 1 (.leaf 765458089590013312)
 (.leaf 765556359106879104)))))
 (.node 8 (.node 4 (.node 2 (.node 1 (.leaf 765567717959375360)
 (.leaf 766258442406349184))
 (.node 1 (.leaf 766278990526955520)
 (.leaf 767342008683575808)))
 (.node 2 (.node 1 (.leaf 767696545574641792)
 (.leaf 767807224316032128))
 (.node 1 (.leaf 767940624871904640)
 (.leaf 768033008382863744))))
 (.node 4 (.node 2 (.node 1 (.leaf 768259285141468672)
 (.leaf 768284883749990656))
 (.node 1 (.leaf 768491647762937472)
 (.leaf 768970539226545664)))
 (.node 2 (.node 1 (.leaf 769123193496869760)
 (.leaf 769180882593318400))
 (.node 1 (.leaf 769778791827227136)
 (.leaf 769872268330256256)))))))
 (.node 32 (.node 16 (.node 8 (.node 4 (.node 2 (.node 1 (.leaf 770165607506012288)
 (.leaf 770691806388669696))
 (.node 1 (.leaf 770772254572253952)
 (.leaf 771018935678961024)))
 (.node 2 (.node 1 (.leaf 771248821292853888)
 (.leaf 771305809517929600))
 (.node 1 (.leaf 771500171589376256)
 (.leaf 771712564362247296))))
 (.node 4 (.node 2 (.node 1 (.leaf 771860381169273344)
 (.leaf 771977049378795904))
 (.node 1 (.leaf 772128682924442624)
 (.leaf 772291851612580864)))
 (.node 2 (.node 1 (.leaf 772333860545686912)
 (.leaf 772963797471975680))
 (.node 1 (.leaf 773137280202998912)
 (.leaf 773420927867825536)))))
 (.node 8 (.node 4 (.node 2 (.node 1 (.leaf 774029186851685632)
 (.leaf 774106440149540992))
 (.node 1 (.leaf 774306542534388864)
 (.leaf 774686751069945600)))
 (.node 2 (.node 1 (.leaf 774878651454819968)
 (.leaf 775295248630187904))
 (.node 1 (.leaf 775328468310235904)
 (.leaf 775367323525908480))))
 (.node 4 (.node 2 (.node 1 (.leaf 775455648896468864)
 (.leaf 775685078899498112))
 (.node 1 (.leaf 775829176020793344)
 (.leaf 776038565328654080)))
 (.node 2 (.node 1 (.leaf 776256709767609856)
 (.leaf 776491568807485056))
 (.node 1 (.leaf 776598939443456768)
 (.leaf 776612293598763648))))))
 (.node 16 (.node 8 (.node 4 (.node 2 (.node 1 (.leaf 776948000892965248)
 (.leaf 777300140954064512))
 (.node 1 (.leaf 777424231738004992)
 (.leaf 777457231205951104)))
 (.node 2 (.node 1 (.leaf 777738585885906176)
 (.leaf 778203447274107392))
 (.node 1 (.leaf 778794153519191168)
 (.leaf 779262562320704000))))
 (.node 4 (.node 2 (.node 1 (.leaf 779712683969960960)
 (.leaf 779834249238869888))
 (.node 1 (.leaf 780406479318336000)
 (.leaf 780471211171581184)))
 (.node 2 (.node 1 (.leaf 780879558238409856)
 (.leaf 781214758517413376))
 (.node 1 (.leaf 781415242206554880)
 (.leaf 781549225214031744)))))
 (.node 8 (.node 4 (.node 2 (.node 1 (.leaf 781598004679679872)
 (.leaf 781652923103764864))
 (.node 1 (.leaf 781949501558583680)
 (.leaf 782777885950187904)))
 (.node 2 (.node 1 (.leaf 783157357758961408)
 (.leaf 783307957581464832))
 (.node 1 (.leaf 783645651014044288)
 (.leaf 783938019547485824))))
 (.node 4 (.node 2 (.node 1 (.leaf 784216966046782464)
 (.leaf 784222441573873024))
 (.node 1 (.leaf 784288877141140224)
 (.leaf 784490017315431936)))
 (.node 2 (.node 1 (.leaf 784562742468333824)
 (.leaf 785039360753277568))
 (.node 1 (.leaf 785184741326887552)
 (.leaf 786037295420606208)))))))))
 (.node 128 (.node 64 (.node 32 (.node 16 (.node 8 (.node 4 (.node 2 (.node 1 (.leaf 786334839701833728)
 (.leaf 786504294407129472))
 (.node 1 (.leaf 786693442811473152)
 (.leaf 787212470685814400)))
 (.node 2 (.node 1 (.leaf 787213196706994816)
 (.leaf 787476617022806656))
 (.node 1 (.leaf 787855440273542656)
 (.leaf 788056212081545472))))
 (.node 4 (.node 2 (.node 1 (.leaf 788082777321208576)
 (.leaf 788273486724972672))
 (.node 1 (.leaf 788571104412046208)
 (.leaf 788580978679647104)))
 (.node 2 (.node 1 (.leaf 788772051279216256)
 (.leaf 788827151863169280))
 (.node 1 (.leaf 788917728532795392)
 (.leaf 789282417824248576)))))
 (.node 8 (.node 4 (.node 2 (.node 1 (.leaf 789381652960439680)
 (.leaf 789402199222301312))
 (.node 1 (.leaf 789428826905491328)
 (.leaf 789492827290725120)))
 (.node 2 (.node 1 (.leaf 789674965098073344)
 (.leaf 789797855368080000))
 (.node 1 (.leaf 790198361781268096)
 (.leaf 790476996694907648))))
 (.node 4 (.node 2 (.node 1 (.leaf 790506011506244096)
 (.leaf 790513102678172672))
 (.node 1 (.leaf 790799359572571904)
 (.leaf 791130364934373504)))
 (.node 2 (.node 1 (.leaf 791489265984962816)
 (.leaf 792092939956004224))
 (.node 1 (.leaf 792184518371522048)
 (.leaf 792599179429636224))))))
 (.node 16 (.node 8 (.node 4 (.node 2 (.node 1 (.leaf 793787701535436544)
 (.leaf 794109896307288448))
 (.node 1 (.leaf 794631360269744640)
 (.leaf 794641098596429440)))
 (.node 2 (.node 1 (.leaf 794976285522657152)
 (.leaf 795047132403767808))
 (.node 1 (.leaf 795141172553867904)
 (.leaf 795152241830793088))))
 (.node 4 (.node 2 (.node 1 (.leaf 795189833151766528)
 (.leaf 795394118875242112))
 (.node 1 (.leaf 795521977476580352)
 (.leaf 795717601105946112)))
 (.node 2 (.node 1 (.leaf 795999352492131968)
 (.leaf 796037932852109568))
 (.node 1 (.leaf 796221067741332992)
 (.leaf 796302140709438720)))))
 (.node 8 (.node 4 (.node 2 (.node 1 (.leaf 796310274065707008)
 (.leaf 796736303793195392))
 (.node 1 (.leaf 796985363216136192)
 (.leaf 797174397832266368)))
 (.node 2 (.node 1 (.leaf 797445143108915968)
 (.leaf 797497440247595776))
 (.node 1 (.leaf 797591081440506496)
 (.leaf 797831171253983872))))
 (.node 4 (.node 2 (.node 1 (.leaf 797951457680912640)
 (.leaf 798172202456219008))
 (.node 1 (.leaf 798288640020551552)
 (.leaf 798443866133151872)))
 (.node 2 (.node 1 (.leaf 798512622410572160)
 (.leaf 798606427635065856))
 (.node 1 (.leaf 798676417129999488)
 (.leaf 798788696105790208)))))))
 (.node 32 (.node 16 (.node 8 (.node 4 (.node 2 (.node 1 (.leaf 799139758353900032)
 (.leaf 799147027066082816))
 (.node 1 (.leaf 799183204273422080)
 (.leaf 799299530873195008)))
 (.node 2 (.node 1 (.leaf 799631219939903360)
 (.leaf 800251775704332032))
 (.node 1 (.leaf 800481914845610496)
 (.leaf 801061026538854144))))
 (.node 4 (.node 2 (.node 1 (.leaf 801110393854413184)
 (.leaf 801111928927440896))
 (.node 1 (.leaf 801221712088143232)
 (.leaf 801373639768329984)))
 (.node 2 (.node 1 (.leaf 801443994083751808)
 (.leaf 801467989708676352))
 (.node 1 (.leaf 802320992254811776)
 (.leaf 803062696899026432)))))
 (.node 8 (.node 4 (.node 2 (.node 1 (.leaf 803851706233014144)
 (.leaf 803918957464312064))
 (.node 1 (.leaf 804201193222634880)
 (.leaf 804403060782062976)))
 (.node 2 (.node 1 (.leaf 804680642356502400)
 (.leaf 805154619928035712))
 (.node 1 (.leaf 805206369596918016)
 (.leaf 805523689184863616))))
 (.node 4 (.node 2 (.node 1 (.leaf 805579784401326976)
 (.leaf 805684373745497088))
 (.node 1 (.leaf 805777445298538624)
 (.leaf 805812831935982080)))
 (.node 2 (.node 1 (.leaf 806211409882632192)
 (.leaf 806614527824085632))
 (.node 1 (.leaf 806687882568396288)
 (.leaf 806850931666963200))))))
 (.node 16 (.node 8 (.node 4 (.node 2 (.node 1 (.leaf 807011756707054464)
 (.leaf 807106232655116032))
 (.node 1 (.leaf 807821026263385984)
 (.leaf 807866532175367296)))
 (.node 2 (.node 1 (.leaf 807946274900350208)
 (.leaf 808052783836637696))
 (.node 1 (.leaf 808297920937979392)
 (.leaf 808528130831472768))))
 (.node 4 (.node 2 (.node 1 (.leaf 808831568926619520)
 (.leaf 809027049505713152))
 (.node 1 (.leaf 809071126876306176)
 (.leaf 810232485085702528)))
 (.node 2 (.node 1 (.leaf 810260268851649408)
 (.leaf 810285253060723328))
 (.node 1 (.leaf 810943676886056448)
 (.leaf 811115732611558400)))))
 (.node 8 (.node 4 (.node 2 (.node 1 (.leaf 812245426870852224)
 (.leaf 812326982440104320))
 (.node 1 (.leaf 812388561229547776)
 (.leaf 812646590654450816)))
 (.node 2 (.node 1 (.leaf 812738659034052608)
 (.leaf 812923120674700672))
 (.node 1 (.leaf 813008365724006400)
 (.leaf 813864729812625408))))
 (.node 4 (.node 2 (.node 1 (.leaf 813932288923617408)
 (.leaf 813962076056151296))
 (.node 1 (.leaf 814053742271134976)
 (.leaf 814246398529523712)))
 (.node 2 (.node 1 (.leaf 814367216649126016)
 (.leaf 814610277460640128))
 (.node 1 (.leaf 814625962842390912)
 (.leaf 814917767867309312))))))))
 (.node 64 (.node 32 (.node 16 (.node 8 (.node 4 (.node 2 (.node 1 (.leaf 814984422666763264)
 (.leaf 815081283271431552))
 (.node 1 (.leaf 815088809365469824)
 (.leaf 815146827506288000)))
 (.node 2 (.node 1 (.leaf 815237076201586944)
 (.leaf 815439189375815808))
 (.node 1 (.leaf 815913824125260032)
 (.leaf 816956845548102912))))
 (.node 4 (.node 2 (.node 1 (.leaf 816970569093471104)
 (.leaf 817212931262420352))
 (.node 1 (.leaf 817520186568233472)
 (.leaf 817705256183414272)))
 (.node 2 (.node 1 (.leaf 818751594003875456)
 (.leaf 818878681387995904))
 (.node 1 (.leaf 819065417090310016)
 (.leaf 819217816662581760)))))
 (.node 8 (.node 4 (.node 2 (.node 1 (.leaf 819316249819047552)
 (.leaf 820255518244079104))
 (.node 1 (.leaf 820846245263770752)
 (.leaf 820947912351644416)))
 (.node 2 (.node 1 (.leaf 821165988610021120)
 (.leaf 821400322985588864))
 (.node 1 (.leaf 821515699884862976)
 (.leaf 821608613754090496))))
 (.node 4 (.node 2 (.node 1 (.leaf 821609924044668032)
 (.leaf 821621529622503680))
 (.node 1 (.leaf 821645119053105408)
 (.leaf 821722008333676160)))
 (.node 2 (.node 1 (.leaf 822024307721282176)
 (.leaf 822666434584324224))
 (.node 1 (.leaf 822752055700196736)
 (.leaf 823140110993834880))))))
 (.node 16 (.node 8 (.node 4 (.node 2 (.node 1 (.leaf 823200020046462592)
 (.leaf 823366136415764224))
 (.node 1 (.leaf 823536668483262848)
 (.leaf 823624798099691008)))
 (.node 2 (.node 1 (.leaf 823786312324354304)
 (.leaf 823911105653596160))
 (.node 1 (.leaf 823923869258623104)
 (.leaf 824012487737223040))))
 (.node 4 (.node 2 (.node 1 (.leaf 825495870788688512)
 (.leaf 825754624731435776))
 (.node 1 (.leaf 826085679561506688)
 (.leaf 826088077642462848)))
 (.node 2 (.node 1 (.leaf 826144584002291712)
 (.leaf 826206633870953728))
 (.node 1 (.leaf 827224770231990400)
 (.leaf 827447307782324352)))))
 (.node 8 (.node 4 (.node 2 (.node 1 (.leaf 827711774569367808)
 (.leaf 827723412969068160))
 (.node 1 (.leaf 827914598987524992)
 (.leaf 828263815441497344)))
 (.node 2 (.node 1 (.leaf 829253365166757504)
 (.leaf 829264907300473984))
 (.node 1 (.leaf 829542204272712960)
 (.leaf 829710246180615424))))
 (.node 4 (.node 2 (.node 1 (.leaf 829792673625070720)
 (.leaf 829851283723150592))
 (.node 1 (.leaf 830005520582010240)
 (.leaf 830050039656168320)))
 (.node 2 (.node 1 (.leaf 830165670300237696)
 (.leaf 830307169193565952))
 (.node 1 (.leaf 830613236518493696)
 (.leaf 830896686034018304)))))))
 (.node 32 (.node 16 (.node 8 (.node 4 (.node 2 (.node 1 (.leaf 831355662710675072)
 (.leaf 831369520971191808))
 (.node 1 (.leaf 831377382032717696)
 (.leaf 831759940980261120)))
 (.node 2 (.node 1 (.leaf 831854025620487936)
 (.leaf 832694443064791040))
 (.node 1 (.leaf 833120419198456960)
 (.leaf 833294884449500544))))
 (.node 4 (.node 2 (.node 1 (.leaf 833425346200717312)
 (.leaf 833706871969951872))
 (.node 1 (.leaf 834000762091578240)
 (.leaf 834577232923284352)))
 (.node 2 (.node 1 (.leaf 836141061883891072)
 (.leaf 836257213125892608))
 (.node 1 (.leaf 838043431727636352)
 (.leaf 838140813805618944)))))
 (.node 8 (.node 4 (.node 2 (.node 1 (.leaf 839184051642686208)
 (.leaf 839186860448907392))
 (.node 1 (.leaf 839743200658014976)
 (.leaf 839914140417801088)))
 (.node 2 (.node 1 (.leaf 840193518675544448)
 (.leaf 840226459647496192))
 (.node 1 (.leaf 840941967432352640)
 (.leaf 841137413507949056))))
 (.node 4 (.node 2 (.node 1 (.leaf 841146779805148416)
 (.leaf 841234047511471744))
 (.node 1 (.leaf 841603454977885440)
 (.leaf 842418804958694400)))
 (.node 2 (.node 1 (.leaf 842840186234177792)
 (.leaf 842963060249245056))
 (.node 1 (.leaf 842964373503786496)
 (.leaf 843013450061651840))))))
 (.node 16 (.node 8 (.node 4 (.node 2 (.node 1 (.leaf 843104962382884224)
 (.leaf 844480464720035328))
 (.node 1 (.leaf 844534737869475456)
 (.leaf 844794133601910528)))
 (.node 2 (.node 1 (.leaf 844889557781358080)
 (.leaf 845121214479935232))
 (.node 1 (.leaf 845232506378676736)
 (.leaf 845712417111869824))))
 (.node 4 (.node 2 (.node 1 (.leaf 846217197046009216)
 (.leaf 846226586064226048))
 (.node 1 (.leaf 846284308484282624)
 (.leaf 846972908303500928)))
 (.node 2 (.node 1 (.leaf 847296016437059840)
 (.leaf 847356771395504128))
 (.node 1 (.leaf 847560172664713856)
 (.leaf 847562293723426560)))))
 (.node 8 (.node 4 (.node 2 (.node 1 (.leaf 848768390000807168)
 (.leaf 848931784500047616))
 (.node 1 (.leaf 849064347706348288)
 (.leaf 849256872919723136)))
 (.node 2 (.node 1 (.leaf 849336696601651072)
 (.leaf 849389259488714496))
 (.node 1 (.leaf 849744546880701952)
 (.leaf 849758282455212928))))
 (.node 4 (.node 2 (.node 1 (.leaf 849828166952885376)
 (.leaf 849964190211769984))
 (.node 1 (.leaf 850226720528489600)
 (.leaf 850573451449787904)))
 (.node 2 (.node 1 (.leaf 850932114435909504)
 (.leaf 851063163648116352))
 (.node 1 (.leaf 851100331205878016)
 (.leaf 851301819186302720))))))))))
 (.node 256 (.node 128 (.node 64 (.node 32 (.node 16 (.node 8 (.node 4 (.node 2 (.node 1 (.leaf 851586377244617344)
 (.leaf 851818768005796352))
 (.node 1 (.leaf 851989242285604992)
 (.leaf 853193998500733184)))
 (.node 2 (.node 1 (.leaf 853437717232719616)
 (.leaf 853501689533692800))
 (.node 1 (.leaf 853613282241778432)
 (.leaf 853633762815694720))))
 (.node 4 (.node 2 (.node 1 (.leaf 853995064556224768)
 (.leaf 854329816426054528))
 (.node 1 (.leaf 854512179543951616)
 (.leaf 855115978716619648)))
 (.node 2 (.node 1 (.leaf 855480282296820864)
 (.leaf 855585749032151168))
 (.node 1 (.leaf 855661799149650304)
 (.leaf 855772631054462976)))))
 (.node 8 (.node 4 (.node 2 (.node 1 (.leaf 855831221935959808)
 (.leaf 856183729379194624))
 (.node 1 (.leaf 856242561362172288)
 (.leaf 856314428692872448)))
 (.node 2 (.node 1 (.leaf 856429436722330368)
 (.leaf 856550147364403072))
 (.node 1 (.leaf 856773343666437760)
 (.leaf 856920866646649600))))
 (.node 4 (.node 2 (.node 1 (.leaf 858350901916222720)
 (.leaf 858411660090989440))
 (.node 1 (.leaf 858529680226476416)
 (.leaf 858633374049888256)))
 (.node 2 (.node 1 (.leaf 859044232980968192)
 (.leaf 859336352567599616))
 (.node 1 (.leaf 859357829557553920)
 (.leaf 859488299801753984))))))
 (.node 16 (.node 8 (.node 4 (.node 2 (.node 1 (.leaf 860652121553560320)
 (.leaf 861103478506762624))
 (.node 1 (.leaf 861164107354443264)
 (.leaf 861376698053674368)))
 (.node 2 (.node 1 (.leaf 861470618746095104)
 (.leaf 861483516615527296))
 (.node 1 (.leaf 862620844621250176)
 (.leaf 862681463656887680))))
 (.node 4 (.node 2 (.node 1 (.leaf 862838773218726528)
 (.leaf 862884225901214976))
 (.node 1 (.leaf 863590504180993024)
 (.leaf 863740291547950976)))
 (.node 2 (.node 1 (.leaf 863948088723184896)
 (.leaf 864010059696589568))
 (.node 1 (.leaf 864476950737816448)
 (.leaf 864702134987613952)))))
 (.node 8 (.node 4 (.node 2 (.node 1 (.leaf 864754651813606784)
 (.leaf 864828213951036672))
 (.node 1 (.leaf 865214683909873024)
 (.leaf 865449429865892224)))
 (.node 2 (.node 1 (.leaf 865489141572815744)
 (.leaf 865704502428218368))
 (.node 1 (.leaf 865830504328349696)
 (.leaf 865977888440161536))))
 (.node 4 (.node 2 (.node 1 (.leaf 866016031832691328)
 (.leaf 866193663478514176))
 (.node 1 (.leaf 866438169827646336)
 (.leaf 866845201135882112)))
 (.node 2 (.node 1 (.leaf 868089926212382848)
 (.leaf 868176836554568960))
 (.node 1 (.leaf 868662001543484544)
 (.leaf 868736615160141952)))))))
 (.node 32 (.node 16 (.node 8 (.node 4 (.node 2 (.node 1 (.leaf 868796618318703744)
 (.leaf 868914571360498048))
 (.node 1 (.leaf 868974490853037568)
 (.leaf 869352626143984512)))
 (.node 2 (.node 1 (.leaf 869384166774945536)
 (.leaf 869851666842729856))
 (.node 1 (.leaf 869910338258365824)
 (.leaf 869919358250975104))))
 (.node 4 (.node 2 (.node 1 (.leaf 870054994610078720)
 (.leaf 870458061288714240))
 (.node 1 (.leaf 870792965606565248)
 (.leaf 870988562394512896)))
 (.node 2 (.node 1 (.leaf 871088131087653120)
 (.leaf 872186540383408896))
 (.node 1 (.leaf 873407587111172992)
 (.leaf 873565252472368640)))))
 (.node 8 (.node 4 (.node 2 (.node 1 (.leaf 873607411098554240)
 (.leaf 874393492757624832))
 (.node 1 (.leaf 874834034700366720)
 (.leaf 874967126341304704)))
 (.node 2 (.node 1 (.leaf 875144325620946176)
 (.leaf 875308471130220160))
 (.node 1 (.leaf 875791404857705088)
 (.leaf 876022485475161088))))
 (.node 4 (.node 2 (.node 1 (.leaf 876204841074632960)
 (.leaf 876403835624860288))
 (.node 1 (.leaf 876432573850753920)
 (.leaf 876508755880634624)))
 (.node 2 (.node 1 (.leaf 876889175910249216)
 (.leaf 876977531524791552))
 (.node 1 (.leaf 877099893840156928)
 (.leaf 877118577159112192))))))
 (.node 16 (.node 8 (.node 4 (.node 2 (.node 1 (.leaf 877195417215995520)
 (.leaf 877414230076144000))
 (.node 1 (.leaf 877941368751902336)
 (.leaf 877960138555556608)))
 (.node 2 (.node 1 (.leaf 878027881576793728)
 (.leaf 878037824923369088))
 (.node 1 (.leaf 878076419541525376)
 (.leaf 878824264229993728))))
 (.node 4 (.node 2 (.node 1 (.leaf 878947587780800768)
 (.leaf 878965371153243008))
 (.node 1 (.leaf 879016976872875392)
 (.leaf 879290371216824960)))
 (.node 2 (.node 1 (.leaf 879388072750306560)
 (.leaf 879498162814747264))
 (.node 1 (.leaf 880362501625839616)
 (.leaf 880803250096632960)))))
 (.node 8 (.node 4 (.node 2 (.node 1 (.leaf 880817984951881600)
 (.leaf 880867644040293120))
 (.node 1 (.leaf 881525175482017536)
 (.leaf 881577964899085952)))
 (.node 2 (.node 1 (.leaf 881685689772754176)
 (.leaf 881740526322072064))
 (.node 1 (.leaf 882756310049505152)
 (.leaf 882973375323591552))))
 (.node 4 (.node 2 (.node 1 (.leaf 883393507121592064)
 (.leaf 883512619297998208))
 (.node 1 (.leaf 883780019087915008)
 (.leaf 884281257717359872)))
 (.node 2 (.node 1 (.leaf 884429921334866944)
 (.leaf 884728988874598656))
 (.node 1 (.leaf 884927085277589888)
 (.leaf 885040276587469568))))))))
 (.node 64 (.node 32 (.node 16 (.node 8 (.node 4 (.node 2 (.node 1 (.leaf 885382464702862592)
 (.leaf 885418107129644672))
 (.node 1 (.leaf 885454819999621376)
 (.leaf 886264832397806720)))
 (.node 2 (.node 1 (.leaf 886364106657089024)
 (.leaf 886827443080970624))
 (.node 1 (.leaf 887690282172147072)
 (.leaf 888230255774075648))))
 (.node 4 (.node 2 (.node 1 (.leaf 889003712333952384)
 (.leaf 889434782202411520))
 (.node 1 (.leaf 889461697594505472)
 (.leaf 889677138556546176)))
 (.node 2 (.node 1 (.leaf 889684935040173440)
 (.leaf 889716006468867328))
 (.node 1 (.leaf 890372524564758784)
 (.leaf 890644963691888512)))))
 (.node 8 (.node 4 (.node 2 (.node 1 (.leaf 891057086903793024)
 (.leaf 891369712675509760))
 (.node 1 (.leaf 892252605829247360)
 (.leaf 892464347909326848)))
 (.node 2 (.node 1 (.leaf 892498115206529024)
 (.leaf 892539617430836352))
 (.node 1 (.leaf 892544842264427392)
 (.leaf 893262395047268608))))
 (.node 4 (.node 2 (.node 1 (.leaf 893262867485124096)
 (.leaf 893619199547903360))
 (.node 1 (.leaf 893790218532805248)
 (.leaf 893877816894145536)))
 (.node 2 (.node 1 (.leaf 894221284516141952)
 (.leaf 894362049188721536))
 (.node 1 (.leaf 894362049188721664)
 (.leaf 894362049188721792))))))
 (.node 16 (.node 8 (.node 4 (.node 2 (.node 1 (.leaf 894419359494529152)
 (.leaf 895213328721687296))
 (.node 1 (.leaf 895722181898014208)
 (.leaf 895898312448492160)))
 (.node 2 (.node 1 (.leaf 896014998415311744)
 (.leaf 896188165481739648))
 (.node 1 (.leaf 896246128934518016)
 (.leaf 896358425771884032))))
 (.node 4 (.node 2 (.node 1 (.leaf 896379186063213824)
 (.leaf 896531116358890624))
 (.node 1 (.leaf 896818059152676224)
 (.leaf 897005771046749952)))
 (.node 2 (.node 1 (.leaf 897043082754114944)
 (.leaf 897241638809965952))
 (.node 1 (.leaf 897276139159867392)
 (.leaf 897285359145990528)))))
 (.node 8 (.node 4 (.node 2 (.node 1 (.leaf 897536720181615616)
 (.leaf 897667509592764928))
 (.node 1 (.leaf 898039579704477440)
 (.leaf 898085499520563584)))
 (.node 2 (.node 1 (.leaf 898232023448475264)
 (.leaf 898296949025155968))
 (.node 1 (.leaf 898343229155751808)
 (.leaf 898415032516947968))))
 (.node 4 (.node 2 (.node 1 (.leaf 898486068227477760)
 (.leaf 898655692282288384))
 (.node 1 (.leaf 898972774967074816)
 (.leaf 898980878601836032)))
 (.node 2 (.node 1 (.leaf 899019138562666752)
 (.leaf 899389364412492160))
 (.node 1 (.leaf 900122553063577088)
 (.leaf 900741826941023104)))))))
 (.node 32 (.node 16 (.node 8 (.node 4 (.node 2 (.node 1 (.leaf 901190029111621120)
 (.leaf 902419065044561408))
 (.node 1 (.leaf 902436197289051520)
 (.leaf 902734508897548544)))
 (.node 2 (.node 1 (.leaf 902848298504928000)
 (.leaf 902996760642839168))
 (.node 1 (.leaf 903372717478440448)
 (.leaf 903739434172919680))))
 (.node 4 (.node 2 (.node 1 (.leaf 903828924080440960)
 (.leaf 903944255322366208))
 (.node 1 (.leaf 904038235374145664)
 (.leaf 904061455552533632)))
 (.node 2 (.node 1 (.leaf 904360699171095936)
 (.leaf 904410233170473216))
 (.node 1 (.leaf 904785893857465984)
 (.leaf 904994318999453440)))))
 (.node 8 (.node 4 (.node 2 (.node 1 (.leaf 905177705399219968)
 (.leaf 905292974797708160))
 (.node 1 (.leaf 905411336608513152)
 (.leaf 905730913990196992)))
 (.node 2 (.node 1 (.leaf 905804337937007232)
 (.leaf 905837503066919680))
 (.node 1 (.leaf 906350631946746112)
 (.leaf 906583055593410816))))
 (.node 4 (.node 2 (.node 1 (.leaf 906609140218153600)
 (.leaf 906810377830902912))
 (.node 1 (.leaf 907029589531108736)
 (.leaf 907629966156063488)))
 (.node 2 (.node 1 (.leaf 907791175571451648)
 (.leaf 908598655291287296))
 (.node 1 (.leaf 908761343871078656)
 (.leaf 908898482122248192))))))
 (.node 16 (.node 8 (.node 4 (.node 2 (.node 1 (.leaf 909064477354510976)
 (.leaf 909094469744675072))
 (.node 1 (.leaf 909119600396403328)
 (.leaf 909212716356813440)))
 (.node 2 (.node 1 (.leaf 909479993359643264)
 (.leaf 909493499175893248))
 (.node 1 (.leaf 909848946965627136)
 (.leaf 909931293655498880))))
 (.node 4 (.node 2 (.node 1 (.leaf 909977425385187200)
 (.leaf 910580201497341824))
 (.node 1 (.leaf 910830332265255680)
 (.leaf 911061956817982720)))
 (.node 2 (.node 1 (.leaf 911362542344030080)
 (.leaf 911860995467375232))
 (.node 1 (.leaf 911884925415126784)
 (.leaf 911915679125451392)))))
 (.node 8 (.node 4 (.node 2 (.node 1 (.leaf 912193920222907520)
 (.leaf 912570648375475072))
 (.node 1 (.leaf 912913407819323904)
 (.leaf 913287364067201152)))
 (.node 2 (.node 1 (.leaf 913366273804801152)
 (.leaf 913405452875425664))
 (.node 1 (.leaf 913465188278958720)
 (.leaf 913571250748444288))))
 (.node 4 (.node 2 (.node 1 (.leaf 914488367355973760)
 (.leaf 914563237692199808))
 (.node 1 (.leaf 914590040950178560)
 (.leaf 914823972306743040)))
 (.node 2 (.node 1 (.leaf 915004016261374208)
 (.leaf 915029899660687232))
 (.node 1 (.leaf 915055422758524800)
 (.leaf 915297617548503936)))))))))
 (.node 128 (.node 64 (.node 32 (.node 16 (.node 8 (.node 4 (.node 2 (.node 1 (.leaf 915454765414629632)
 (.leaf 916065879687240064))
 (.node 1 (.leaf 916266420991447424)
 (.leaf 916296450901889536)))
 (.node 2 (.node 1 (.leaf 916340073006592256)
 (.leaf 916364017900295040))
 (.node 1 (.leaf 916769460997246720)
 (.leaf 916818222485758976))))
 (.node 4 (.node 2 (.node 1 (.leaf 916964452636107648)
 (.leaf 917022189884564352))
 (.node 1 (.leaf 917382102426625792)
 (.leaf 917948262405865472)))
 (.node 2 (.node 1 (.leaf 918253786202790784)
 (.leaf 918367733217277056))
 (.node 1 (.leaf 919377143327450496)
 (.leaf 919707589929713152)))))
 (.node 8 (.node 4 (.node 2 (.node 1 (.leaf 920068419174979072)
 (.leaf 920371857648737536))
 (.node 1 (.leaf 920398636903997568)
 (.leaf 920461612380428288)))
 (.node 2 (.node 1 (.leaf 920608826510500224)
 (.leaf 920805268113079808))
 (.node 1 (.leaf 920902760983656320)
 (.leaf 921478071578365568))))
 (.node 4 (.node 2 (.node 1 (.leaf 921746738210305280)
 (.leaf 921797629131129856))
 (.node 1 (.leaf 922229756664501888)
 (.leaf 922452938857762688)))
 (.node 2 (.node 1 (.leaf 922507876812781696)
 (.leaf 922895461940052096))
 (.node 1 (.leaf 923110093217063296)
 (.leaf 923337696020590080))))))
 (.node 16 (.node 8 (.node 4 (.node 2 (.node 1 (.leaf 923556762321925504)
 (.leaf 923744632360547968))
 (.node 1 (.leaf 924783007308714624)
 (.leaf 924939781178946560)))
 (.node 2 (.node 1 (.leaf 925413039359419392)
 (.leaf 925601879208028032))
 (.node 1 (.leaf 925861295079374208)
 (.leaf 926079620105156352))))
 (.node 4 (.node 2 (.node 1 (.leaf 926793903450412928)
 (.leaf 926873308682091520))
 (.node 1 (.leaf 926929397767402112)
 (.leaf 927635538776233600)))
 (.node 2 (.node 1 (.leaf 927693975257122048)
 (.leaf 928122817609214592))
 (.node 1 (.leaf 928273224996911360)
 (.leaf 928622852669309184)))))
 (.node 8 (.node 4 (.node 2 (.node 1 (.leaf 928740106225070464)
 (.leaf 928908387300697472))
 (.node 1 (.leaf 929119230369655808)
 (.leaf 930168483564434432)))
 (.node 2 (.node 1 (.leaf 930171816572900480)
 (.leaf 930230499355759360))
 (.node 1 (.leaf 930501397662082560)
 (.leaf 930777006350584064))))
 (.node 4 (.node 2 (.node 1 (.leaf 931270097550099584)
 (.leaf 931384143260958592))
 (.node 1 (.leaf 931540893106557440)
 (.leaf 931693552660310400)))
 (.node 2 (.node 1 (.leaf 931937488998593536)
 (.leaf 932527218180712704))
 (.node 1 (.leaf 932838661521691264)
 (.leaf 932950115620839808)))))))
 (.node 32 (.node 16 (.node 8 (.node 4 (.node 2 (.node 1 (.leaf 933287007959175936)
 (.leaf 933838394439531264))
 (.node 1 (.leaf 933969725938622720)
 (.leaf 934053160639585024)))
 (.node 2 (.node 1 (.leaf 934107237296964992)
 (.leaf 934802524782117376))
 (.node 1 (.leaf 935145275524494720)
 (.leaf 935236050062452864))))
 (.node 4 (.node 2 (.node 1 (.leaf 935545903184699008)
 (.leaf 936721090920166144))
 (.node 1 (.leaf 936843564178342144)
 (.leaf 936886691904165376)))
 (.node 2 (.node 1 (.leaf 936899708797181568)
 (.leaf 938306060111723008))
 (.node 1 (.leaf 938367353025610112)
 (.leaf 938633451604597504)))))
 (.node 8 (.node 4 (.node 2 (.node 1 (.leaf 938842071657613696)
 (.leaf 938896989902397312))
 (.node 1 (.leaf 939199276861511680)
 (.leaf 939298993965987584)))
 (.node 2 (.node 1 (.leaf 939300265140710528)
 (.leaf 939697574867266048))
 (.node 1 (.leaf 939745067162886656)
 (.leaf 939993596637376384))))
 (.node 4 (.node 2 (.node 1 (.leaf 941022456435125504)
 (.leaf 941034547630291200))
 (.node 1 (.leaf 941269355804001664)
 (.leaf 941279942090650752)))
 (.node 2 (.node 1 (.leaf 942258183940583552)
 (.leaf 942529995290506368))
 (.node 1 (.leaf 942950443853659008)
 (.leaf 943019919397574400))))))
 (.node 16 (.node 8 (.node 4 (.node 2 (.node 1 (.leaf 943143883306123904)
 (.leaf 943923486670818432))
 (.node 1 (.leaf 943960970508215168)
 (.leaf 944193645435193472)))
 (.node 2 (.node 1 (.leaf 944299102127024384)
 (.leaf 944588831225012864))
 (.node 1 (.leaf 944793419573256064)
 (.leaf 944816071771959680))))
 (.node 4 (.node 2 (.node 1 (.leaf 945175064544187776)
 (.leaf 945682902308989184))
 (.node 1 (.leaf 946044684984637568)
 (.leaf 946178665852891648)))
 (.node 2 (.node 1 (.leaf 946712302193751168)
 (.leaf 946740583702277760))
 (.node 1 (.leaf 946797044697287680)
 (.leaf 947618681018093824)))))
 (.node 8 (.node 4 (.node 2 (.node 1 (.leaf 947760263423492992)
 (.leaf 948117093389444992))
 (.node 1 (.leaf 948231672220873216)
 (.leaf 948495597672249984)))
 (.node 2 (.node 1 (.leaf 948607838459233792)
 (.leaf 948756246282944896))
 (.node 1 (.leaf 949052986619313408)
 (.leaf 949409709383817472))))
 (.node 4 (.node 2 (.node 1 (.leaf 950093407697447296)
 (.leaf 950320842533895936))
 (.node 1 (.leaf 950335661296418944)
 (.leaf 950406757730562304)))
 (.node 2 (.node 1 (.leaf 951118252998733952)
 (.leaf 951631015965052544))
 (.node 1 (.leaf 951879283236152320)
 (.leaf 951988996394615680))))))))
 (.node 64 (.node 32 (.node 16 (.node 8 (.node 4 (.node 2 (.node 1 (.leaf 952451601255926912)
 (.leaf 952674438169893760))
 (.node 1 (.leaf 952867012821550080)
 (.leaf 953100806902174592)))
 (.node 2 (.node 1 (.leaf 953190900396413184)
 (.leaf 953992779345707648))
 (.node 1 (.leaf 954205706135109120)
 (.leaf 954482542501513472))))
 (.node 4 (.node 2 (.node 1 (.leaf 954934884561020544)
 (.leaf 955290462042529280))
 (.node 1 (.leaf 955318484067201408)
 (.leaf 955418253571094016)))
 (.node 2 (.node 1 (.leaf 955515324861183360)
 (.leaf 955515382512537984))
 (.node 1 (.leaf 955797637272983168)
 (.leaf 956288437126165120)))))
 (.node 8 (.node 4 (.node 2 (.node 1 (.leaf 956307301005536000)
 (.leaf 956563482818381440))
 (.node 1 (.leaf 956587364186815232)
 (.leaf 956717961431254400)))
 (.node 2 (.node 1 (.leaf 956895190527752832)
 (.leaf 956896185284448640))
 (.node 1 (.leaf 956989479088845440)
 (.leaf 957352476416162816))))
 (.node 4 (.node 2 (.node 1 (.leaf 957430961461557248)
 (.leaf 957924431332597120))
 (.node 1 (.leaf 958459018996918144)
 (.leaf 958523401636784512)))
 (.node 2 (.node 1 (.leaf 958858239274490368)
 (.leaf 959520503280696064))
 (.node 1 (.leaf 959533369580493696)
 (.leaf 960149656511643776))))))
 (.node 16 (.node 8 (.node 4 (.node 2 (.node 1 (.leaf 960506557058382848)
 (.leaf 961080321482170112))
 (.node 1 (.leaf 962220059761674624)
 (.leaf 962631316883187968)))
 (.node 2 (.node 1 (.leaf 962853243200391424)
 (.leaf 962909595987636352))
 (.node 1 (.leaf 962916970357312896)
 (.leaf 963124390617660544))))
 (.node 4 (.node 2 (.node 1 (.leaf 963238988232420864)
 (.leaf 963243915560080896))
 (.node 1 (.leaf 963481513136279680)
 (.leaf 964126818885204736)))
 (.node 2 (.node 1 (.leaf 964401180509248512)
 (.leaf 964551616115750656))
 (.node 1 (.leaf 964698428990094208)
 (.leaf 964707193359724544)))))
 (.node 8 (.node 4 (.node 2 (.node 1 (.leaf 964791269123593856)
 (.leaf 965441053522673536))
 (.node 1 (.leaf 965775520957494656)
 (.leaf 965861820811073664)))
 (.node 2 (.node 1 (.leaf 965951733142348800)
 (.leaf 966443245731401984))
 (.node 1 (.leaf 966539894708285056)
 (.leaf 966662779395350528))))
 (.node 4 (.node 2 (.node 1 (.leaf 966817191820623744)
 (.leaf 967138597843885696))
 (.node 1 (.leaf 967319689508303488)
 (.leaf 967541795827678848)))
 (.node 2 (.node 1 (.leaf 967619442472752768)
 (.leaf 968160512387841152))
 (.node 1 (.leaf 968375806611778688)
 (.leaf 968735712851838208)))))))
 (.node 32 (.node 16 (.node 8 (.node 4 (.node 2 (.node 1 (.leaf 969388797277351168)
 (.leaf 970617263533613312))
 (.node 1 (.leaf 971353252622606464)
 (.leaf 971538979836416640)))
 (.node 2 (.node 1 (.leaf 971706733956603136)
 (.leaf 971825383647945216))
 (.node 1 (.leaf 972070763098460800)
 (.leaf 972142571375327744))))
 (.node 4 (.node 2 (.node 1 (.leaf 972564645063978624)
 (.leaf 972822890379539712))
 (.node 1 (.leaf 973066470495868032)
 (.leaf 973307068051007872)))
 (.node 2 (.node 1 (.leaf 973399568641986176)
 (.leaf 973510830440350592))
 (.node 1 (.leaf 973665676827037568)
 (.leaf 973755386935093632)))))
 (.node 8 (.node 4 (.node 2 (.node 1 (.leaf 973811205794793600)
 (.leaf 974200195596956160))
 (.node 1 (.leaf 974230269238577664)
 (.leaf 974887547318765312)))
 (.node 2 (.node 1 (.leaf 974953608764990464)
 (.leaf 974954798778864128))
 (.node 1 (.leaf 975413135880874624)
 (.leaf 975760773737361792))))
 (.node 4 (.node 2 (.node 1 (.leaf 975980469098555264)
 (.leaf 976033956109381632))
 (.node 1 (.leaf 976396991545548160)
 (.leaf 976514794427926528)))
 (.node 2 (.node 1 (.leaf 976648953520288384)
 (.leaf 976970228326111360))
 (.node 1 (.leaf 976995761634589184)
 (.leaf 977803058790330240))))))
 (.node 16 (.node 8 (.node 4 (.node 2 (.node 1 (.leaf 978798538094129664)
 (.leaf 979105711874570496))
 (.node 1 (.leaf 979170958673698304)
 (.leaf 979308903003038976)))
 (.node 2 (.node 1 (.leaf 980384775085901184)
 (.leaf 980681685674412800))
 (.node 1 (.leaf 981130308062803456)
 (.leaf 981248515880662528))))
 (.node 4 (.node 2 (.node 1 (.leaf 981434764534549504)
 (.leaf 981633604228337664))
 (.node 1 (.leaf 981732522357809024)
 (.leaf 981923027831664384)))
 (.node 2 (.node 1 (.leaf 982872109022291712)
 (.leaf 983193307804014592))
 (.node 1 (.leaf 983482627259839232)
 (.leaf 984155140718527616)))))
 (.node 8 (.node 4 (.node 2 (.node 1 (.leaf 984256817594888192)
 (.leaf 984340864517129728))
 (.node 1 (.leaf 984779995492627328)
 (.leaf 985027754127637120)))
 (.node 2 (.node 1 (.leaf 985448837833106048)
 (.leaf 985623264465933696))
 (.node 1 (.leaf 986132391709566208)
 (.leaf 986898763473368448))))
 (.node 4 (.node 2 (.node 1 (.leaf 987920488598995968)
 (.leaf 987985518164221312))
 (.node 1 (.leaf 988373403541365632)
 (.leaf 988428111509862144)))
 (.node 2 (.node 1 (.leaf 988479660101711616)
 (.leaf 988991454871849984))
 (.node 1 (.leaf 989051532820422784)
 (.leaf 989335318810344576)))))))))))
 (.node 512 (.node 256 (.node 128 (.node 64 (.node 32 (.node 16 (.node 8 (.node 4 (.node 2 (.node 1 (.leaf 990031860609323776)
 (.leaf 990272413380895360))
 (.node 1 (.leaf 990542033189660160)
 (.leaf 991283743444104320)))
 (.node 2 (.node 1 (.leaf 991408004585196032)
 (.leaf 991414581118516224))
 (.node 1 (.leaf 991885711170230784)
 (.leaf 991954225544639872))))
 (.node 4 (.node 2 (.node 1 (.leaf 992082096447720192)
 (.leaf 992087170550019200))
 (.node 1 (.leaf 992371654046786816)
 (.leaf 992439499227868416)))
 (.node 2 (.node 1 (.leaf 993085869464322816)
 (.leaf 993122973045782272))
 (.node 1 (.leaf 993270538775432576)
 (.leaf 993466884639603584)))))
 (.node 8 (.node 4 (.node 2 (.node 1 (.leaf 994082036780660096)
 (.leaf 995321432565049984))
 (.node 1 (.leaf 995443721272951040)
 (.leaf 995574890758123008)))
 (.node 2 (.node 1 (.leaf 995893967401854720)
 (.leaf 995989238206873600))
 (.node 1 (.leaf 996130993236853888)
 (.leaf 996185933123718656))))
 (.node 4 (.node 2 (.node 1 (.leaf 996258824288108160)
 (.leaf 996325827390672384))
 (.node 1 (.leaf 996518802076015488)
 (.leaf 997615492136106752)))
 (.node 2 (.node 1 (.leaf 997904026060058880)
 (.leaf 997996283121976960))
 (.node 1 (.leaf 998099834330196608)
 (.leaf 998321731453543552))))))
 (.node 16 (.node 8 (.node 4 (.node 2 (.node 1 (.leaf 998598044298558592)
 (.leaf 998926039270912640))
 (.node 1 (.leaf 999565274044260992)
 (.leaf 999608530406198784)))
 (.node 2 (.node 1 (.leaf 999683340444435072)
 (.leaf 999879782804064640))
 (.node 1 (.leaf 1000068074396873088)
 (.leaf 1000633921949348992))))
 (.node 4 (.node 2 (.node 1 (.leaf 1000916274869488640)
 (.leaf 1000923934598006272))
 (.node 1 (.leaf 1000926116310360320)
 (.leaf 1001201191714988928)))
 (.node 2 (.node 1 (.leaf 1001329900898301824)
 (.leaf 1001400937355266432))
 (.node 1 (.leaf 1001684194423832832)
 (.leaf 1001775223973221760)))))
 (.node 8 (.node 4 (.node 2 (.node 1 (.leaf 1001941881895624576)
 (.leaf 1002064127425564672))
 (.node 1 (.leaf 1002336054862504704)
 (.leaf 1002411787653071744)))
 (.node 2 (.node 1 (.leaf 1002427812253605888)
 (.leaf 1002607230182809728))
 (.node 1 (.leaf 1002975202606043008)
 (.leaf 1002981492000734848))))
 (.node 4 (.node 2 (.node 1 (.leaf 1003050801029990016)
 (.leaf 1003483116362365184))
 (.node 1 (.leaf 1003568592700270720)
 (.leaf 1003570783298895232)))
 (.node 2 (.node 1 (.leaf 1003590237232168448)
 (.leaf 1003727662308738560))
 (.node 1 (.leaf 1004421906619036288)
 (.leaf 1004561257562741760)))))))
 (.node 32 (.node 16 (.node 8 (.node 4 (.node 2 (.node 1 (.leaf 1004801044916739968)
 (.leaf 1004838638121313024))
 (.node 1 (.leaf 1005066363256455552)
 (.leaf 1005175522580534016)))
 (.node 2 (.node 1 (.leaf 1005239639365401216)
 (.leaf 1005541852606374272))
 (.node 1 (.leaf 1005547814733175936)
 (.leaf 1006116237886913024))))
 (.node 4 (.node 2 (.node 1 (.leaf 1006345985076886144)
 (.leaf 1006781802514589056))
 (.node 1 (.leaf 1007204368040757632)
 (.leaf 1007585849535646592)))
 (.node 2 (.node 1 (.leaf 1007686260390805504)
 (.leaf 1007876869650492160))
 (.node 1 (.leaf 1007886879524785280)
 (.leaf 1008154208661734784)))))
 (.node 8 (.node 4 (.node 2 (.node 1 (.leaf 1008507805985851264)
 (.leaf 1009071146880070016))
 (.node 1 (.leaf 1009146550442107392)
 (.leaf 1009570006791008256)))
 (.node 2 (.node 1 (.leaf 1009586001966585728)
 (.leaf 1009710312657938816))
 (.node 1 (.leaf 1009736404919248896)
 (.leaf 1010477068945526272))))
 (.node 4 (.node 2 (.node 1 (.leaf 1010521067436385408)
 (.leaf 1010578415492854144))
 (.node 1 (.leaf 1010778775060365568)
 (.leaf 1011952580611980160)))
 (.node 2 (.node 1 (.leaf 1012009498914112256)
 (.leaf 1012062661897528320))
 (.node 1 (.leaf 1012639104738562688)
 (.leaf 1012893756898977408))))))
 (.node 16 (.node 8 (.node 4 (.node 2 (.node 1 (.leaf 1013032174323314176)
 (.leaf 1013786036763010048))
 (.node 1 (.leaf 1013814498536933248)
 (.leaf 1014053867453710848)))
 (.node 2 (.node 1 (.leaf 1014071903421715712)
 (.leaf 1014376588271337216))
 (.node 1 (.leaf 1014574612885781888)
 (.leaf 1015007361521760128))))
 (.node 4 (.node 2 (.node 1 (.leaf 1015080540081044352)
 (.leaf 1015167246507178240))
 (.node 1 (.leaf 1015261606225786880)
 (.leaf 1015264788913324928)))
 (.node 2 (.node 1 (.leaf 1015333995102788736)
 (.leaf 1015644823382258048))
 (.node 1 (.leaf 1015665494455335936)
 (.leaf 1017663916788339968)))))
 (.node 8 (.node 4 (.node 2 (.node 1 (.leaf 1017926409604659072)
 (.leaf 1017966847070562944))
 (.node 1 (.leaf 1018332910226001792)
 (.leaf 1018706591799774208)))
 (.node 2 (.node 1 (.leaf 1019162793183436672)
 (.leaf 1019286316259312512))
 (.node 1 (.leaf 1019327133531600384)
 (.leaf 1019411832928456960))))
 (.node 4 (.node 2 (.node 1 (.leaf 1019596511854000128)
 (.leaf 1019623127362282880))
 (.node 1 (.leaf 1019656108139186048)
 (.leaf 1019974406982486400)))
 (.node 2 (.node 1 (.leaf 1020476256408404992)
 (.leaf 1021304595260219648))
 (.node 1 (.leaf 1021963881227761792)
 (.leaf 1022190989207045632))))))))
 (.node 64 (.node 32 (.node 16 (.node 8 (.node 4 (.node 2 (.node 1 (.leaf 1022633084240747264)
 (.leaf 1022676840863642112))
 (.node 1 (.leaf 1023041376426169216)
 (.leaf 1023231927553254272)))
 (.node 2 (.node 1 (.leaf 1023241076382861440)
 (.leaf 1023685856632029440))
 (.node 1 (.leaf 1023693567174678272)
 (.leaf 1025588559690153600))))
 (.node 4 (.node 2 (.node 1 (.leaf 1025621648080286976)
 (.leaf 1025723331421716992))
 (.node 1 (.leaf 1025827404591130752)
 (.leaf 1025870360202820480)))
 (.node 2 (.node 1 (.leaf 1026401007128444672)
 (.leaf 1026893595898337664))
 (.node 1 (.leaf 1027538148739673344)
 (.leaf 1028458752678335488)))))
 (.node 8 (.node 4 (.node 2 (.node 1 (.leaf 1028474260431569920)
 (.leaf 1028592293521706496))
 (.node 1 (.leaf 1029205308446385408)
 (.leaf 1029610635831003264)))
 (.node 2 (.node 1 (.leaf 1029691147243207040)
 (.leaf 1029751248550585728))
 (.node 1 (.leaf 1029832247555943936)
 (.leaf 1029851039504061824))))
 (.node 4 (.node 2 (.node 1 (.leaf 1029879781160112512)
 (.leaf 1030053315499848064))
 (.node 1 (.leaf 1030113546345590016)
 (.leaf 1030383207631689472)))
 (.node 2 (.node 1 (.leaf 1030555453120872960)
 (.leaf 1031061738409914624))
 (.node 1 (.leaf 1031706920742705152)
 (.leaf 1031972936299911424))))))
 (.node 16 (.node 8 (.node 4 (.node 2 (.node 1 (.leaf 1032231446823274496)
 (.leaf 1032466607934533376))
 (.node 1 (.leaf 1032573576990900864)
 (.leaf 1032967865201463168)))
 (.node 2 (.node 1 (.leaf 1033841286528255616)
 (.leaf 1034059627964100224))
 (.node 1 (.leaf 1034160734613850752)
 (.leaf 1034202751636031104))))
 (.node 4 (.node 2 (.node 1 (.leaf 1034608011932131584)
 (.leaf 1035127055037480320))
 (.node 1 (.leaf 1035556922522748416)
 (.leaf 1036186826727419648)))
 (.node 2 (.node 1 (.leaf 1036264830072473344)
 (.leaf 1036276343546271360))
 (.node 1 (.leaf 1036374682946858240)
 (.leaf 1036394010621732608)))))
 (.node 8 (.node 4 (.node 2 (.node 1 (.leaf 1036628498227340544)
 (.leaf 1036629428890495616))
 (.node 1 (.leaf 1036707597528049792)
 (.leaf 1036893828007426176)))
 (.node 2 (.node 1 (.leaf 1037077945333129984)
 (.leaf 1037177810226109696))
 (.node 1 (.leaf 1037345723023993216)
 (.leaf 1037511328508246784))))
 (.node 4 (.node 2 (.node 1 (.leaf 1038282912696322048)
 (.leaf 1038930453359535616))
 (.node 1 (.leaf 1038968178823351296)
 (.leaf 1039142511561557760)))
 (.node 2 (.node 1 (.leaf 1039529650659265408)
 (.leaf 1039899233581898880))
 (.node 1 (.leaf 1040010545601322624)
 (.leaf 1040238046336008448)))))))
 (.node 32 (.node 16 (.node 8 (.node 4 (.node 2 (.node 1 (.leaf 1040344700836243328)
 (.leaf 1040711718146377984))
 (.node 1 (.leaf 1040806284754033536)
 (.leaf 1040874371797803776)))
 (.node 2 (.node 1 (.leaf 1041037887509755136)
 (.leaf 1041193947019387776))
 (.node 1 (.leaf 1041421006567491456)
 (.leaf 1041743132701537920))))
 (.node 4 (.node 2 (.node 1 (.leaf 1041856409198751616)
 (.leaf 1042151452623372800))
 (.node 1 (.leaf 1042233240399165952)
 (.leaf 1042313571634368768)))
 (.node 2 (.node 1 (.leaf 1043438932993718272)
 (.leaf 1044234797945289216))
 (.node 1 (.leaf 1044927166691713024)
 (.leaf 1045071050542172672)))))
 (.node 8 (.node 4 (.node 2 (.node 1 (.leaf 1045396816872613120)
 (.leaf 1045398493157763584))
 (.node 1 (.leaf 1045556796932710400)
 (.leaf 1046091651394535552)))
 (.node 2 (.node 1 (.leaf 1046316931215963520)
 (.leaf 1046892369014540032))
 (.node 1 (.leaf 1046964018051186560)
 (.leaf 1047473089566378496))))
 (.node 4 (.node 2 (.node 1 (.leaf 1048443410805271936)
 (.leaf 1048598760035716480))
 (.node 1 (.leaf 1049140561141035776)
 (.leaf 1049364468413460608)))
 (.node 2 (.node 1 (.leaf 1049426867278652800)
 (.leaf 1049538983999735936))
 (.node 1 (.leaf 1049671139584114816)
 (.leaf 1051303912846114560))))))
 (.node 16 (.node 8 (.node 4 (.node 2 (.node 1 (.leaf 1051328571139374464)
 (.leaf 1051375527456771712))
 (.node 1 (.leaf 1051745935633644800)
 (.leaf 1052364290510956160)))
 (.node 2 (.node 1 (.leaf 1052631655768803072)
 (.leaf 1052918863796360576))
 (.node 1 (.leaf 1052938858862825856)
 (.leaf 1052983471976939392))))
 (.node 4 (.node 2 (.node 1 (.leaf 1053058952673506560)
 (.leaf 1053520499710869504))
 (.node 1 (.leaf 1053880442782091904)
 (.leaf 1054160580749786240)))
 (.node 2 (.node 1 (.leaf 1054340340846613504)
 (.leaf 1054344032499852672))
 (.node 1 (.leaf 1054538343466868864)
 (.leaf 1054922640695798272)))))
 (.node 8 (.node 4 (.node 2 (.node 1 (.leaf 1055108602679392768)
 (.leaf 1055211541877728000))
 (.node 1 (.leaf 1055406596290359040)
 (.leaf 1055932162730867712)))
 (.node 2 (.node 1 (.leaf 1055957676350475776)
 (.leaf 1055991543414666752))
 (.node 1 (.leaf 1056278143014284416)
 (.leaf 1056543859056720512))))
 (.node 4 (.node 2 (.node 1 (.leaf 1056589482581404032)
 (.leaf 1057115741751092096))
 (.node 1 (.leaf 1057177711917025024)
 (.leaf 1057401040588929408)))
 (.node 2 (.node 1 (.leaf 1057534246177282816)
 (.leaf 1058101745302032768))
 (.node 1 (.leaf 1058159358474990592)
 (.leaf 1058225796321473792)))))))))
 (.node 128 (.node 64 (.node 32 (.node 16 (.node 8 (.node 4 (.node 2 (.node 1 (.leaf 1058694669500913664)
 (.leaf 1058711263264576128))
 (.node 1 (.leaf 1059348379709475072)
 (.leaf 1059788515623870208)))
 (.node 2 (.node 1 (.leaf 1060305312582806400)
 (.leaf 1060493748632194304))
 (.node 1 (.leaf 1060982746853907712)
 (.leaf 1061785309429439488))))
 (.node 4 (.node 2 (.node 1 (.leaf 1062005254629877760)
 (.leaf 1062194834786514048))
 (.node 1 (.leaf 1062201063666527744)
 (.leaf 1062638300433889536)))
 (.node 2 (.node 1 (.leaf 1062736402949992448)
 (.leaf 1062958408588976640))
 (.node 1 (.leaf 1063142537951556352)
 (.leaf 1063756106897687680)))))
 (.node 8 (.node 4 (.node 2 (.node 1 (.leaf 1064286131897079296)
 (.leaf 1064909915631483648))
 (.node 1 (.leaf 1065545938793582208)
 (.leaf 1065636894662133504)))
 (.node 2 (.node 1 (.leaf 1065806680943896704)
 (.leaf 1065868904090168320))
 (.node 1 (.leaf 1066200992613212928)
 (.leaf 1066359724394845440))))
 (.node 4 (.node 2 (.node 1 (.leaf 1066495669464585216)
 (.leaf 1066623024564849792))
 (.node 1 (.leaf 1066844419374648576)
 (.leaf 1067002752133522176)))
 (.node 2 (.node 1 (.leaf 1067483107028916736)
 (.leaf 1067855571027302528))
 (.node 1 (.leaf 1068144529166905344)
 (.leaf 1068373900372946560))))))
 (.node 16 (.node 8 (.node 4 (.node 2 (.node 1 (.leaf 1068577655712682880)
 (.leaf 1068747875852282112))
 (.node 1 (.leaf 1069125252219988992)
 (.leaf 1069147522574903680)))
 (.node 2 (.node 1 (.leaf 1070493202012152192)
 (.leaf 1070537962819303936))
 (.node 1 (.leaf 1070811024763523968)
 (.leaf 1070977415579782400))))
 (.node 4 (.node 2 (.node 1 (.leaf 1071011101688292224)
 (.leaf 1071019468572486272))
 (.node 1 (.leaf 1071181096518721408)
 (.leaf 1072764988164813696)))
 (.node 2 (.node 1 (.leaf 1072969084082266752)
 (.leaf 1073033277104367744))
 (.node 1 (.leaf 1073063034493572224)
 (.leaf 1073756824419666432)))))
 (.node 8 (.node 4 (.node 2 (.node 1 (.leaf 1073878593644816384)
 (.leaf 1074603600896341120))
 (.node 1 (.leaf 1074676876714869888)
 (.leaf 1074693729715358336)))
 (.node 2 (.node 1 (.leaf 1074818455428268416)
 (.leaf 1075142730554010496))
 (.node 1 (.leaf 1075949262374215552)
 (.leaf 1076268204802911360))))
 (.node 4 (.node 2 (.node 1 (.leaf 1076269749285448576)
 (.leaf 1078016024013853824))
 (.node 1 (.leaf 1078657461906625920)
 (.leaf 1079682874782647680)))
 (.node 2 (.node 1 (.leaf 1081497893684198400)
 (.leaf 1081647922571565056))
 (.node 1 (.leaf 1081843613725273600)
 (.leaf 1081869085525975552)))))))
 (.node 32 (.node 16 (.node 8 (.node 4 (.node 2 (.node 1 (.leaf 1081988678158907520)
 (.leaf 1082155185319728640))
 (.node 1 (.leaf 1082252120782384384)
 (.leaf 1082422273219468544)))
 (.node 2 (.node 1 (.leaf 1082782830852445184)
 (.leaf 1082900476333057024))
 (.node 1 (.leaf 1082932601572267776)
 (.leaf 1083193996679977344))))
 (.node 4 (.node 2 (.node 1 (.leaf 1083282509636801920)
 (.leaf 1083631060881616640))
 (.node 1 (.leaf 1084112568294542080)
 (.leaf 1084333469945101952)))
 (.node 2 (.node 1 (.leaf 1084344327062772480)
 (.leaf 1084403462287581184))
 (.node 1 (.leaf 1084459902786341888)
 (.leaf 1084765759383057408)))))
 (.node 8 (.node 4 (.node 2 (.node 1 (.leaf 1084938013092080256)
 (.leaf 1085066750455105920))
 (.node 1 (.leaf 1085277538401402624)
 (.leaf 1086839418675399296)))
 (.node 2 (.node 1 (.leaf 1087166258812287872)
 (.leaf 1087464290863535744))
 (.node 1 (.leaf 1087689528670656896)
 (.leaf 1087840141560579328))))
 (.node 4 (.node 2 (.node 1 (.leaf 1088009812097795456)
 (.leaf 1088956897938701184))
 (.node 1 (.leaf 1090013221828410624)
 (.leaf 1091367188428021248)))
 (.node 2 (.node 1 (.leaf 1091381448087534464)
 (.leaf 1091590975785420928))
 (.node 1 (.leaf 1091699871566310528)
 (.leaf 1091842718776685696))))))
 (.node 16 (.node 8 (.node 4 (.node 2 (.node 1 (.leaf 1092560688893755904)
 (.leaf 1093428418337482496))
 (.node 1 (.leaf 1093601975491169920)
 (.leaf 1093779695460668032)))
 (.node 2 (.node 1 (.leaf 1093791892601347456)
 (.leaf 1094216671815635840))
 (.node 1 (.leaf 1094266255948657152)
 (.leaf 1094436391356086784))))
 (.node 4 (.node 2 (.node 1 (.leaf 1094493187643627264)
 (.leaf 1094584639914771584))
 (.node 1 (.leaf 1094709653520002176)
 (.leaf 1094789172332905216)))
 (.node 2 (.node 1 (.leaf 1094964681317913600)
 (.leaf 1095114832710694272))
 (.node 1 (.leaf 1095218224665340416)
 (.leaf 1095358111133086336)))))
 (.node 8 (.node 4 (.node 2 (.node 1 (.leaf 1095767578382615936)
 (.leaf 1095832364209089152))
 (.node 1 (.leaf 1095990695817869056)
 (.leaf 1096034396133295744)))
 (.node 2 (.node 1 (.leaf 1096401447607639296)
 (.leaf 1096621016449344896))
 (.node 1 (.leaf 1097109467455530240)
 (.leaf 1097186061374939520))))
 (.node 4 (.node 2 (.node 1 (.leaf 1097243393467003008)
 (.leaf 1097437028637380096))
 (.node 1 (.leaf 1097796576332711808)
 (.leaf 1098017177957669504)))
 (.node 2 (.node 1 (.leaf 1098374619590558592)
 (.leaf 1098801876118613120))
 (.node 1 (.leaf 1098980534156384768)
 (.leaf 1099111890809331456))))))))
 (.node 64 (.node 32 (.node 16 (.node 8 (.node 4 (.node 2 (.node 1 (.leaf 1099156713627619456)
 (.leaf 1099343126986871680))
 (.node 1 (.leaf 1099455626354119424)
 (.leaf 1099583414273589376)))
 (.node 2 (.node 1 (.leaf 1100221303803555840)
 (.leaf 1100563562754780672))
 (.node 1 (.leaf 1100572203658402048)
 (.leaf 1101017417926033408))))
 (.node 4 (.node 2 (.node 1 (.leaf 1101694415733985920)
 (.leaf 1102042740063624960))
 (.node 1 (.leaf 1102284980387093760)
 (.leaf 1102545325427617792)))
 (.node 2 (.node 1 (.leaf 1103678144718173312)
 (.leaf 1103711919421769088))
 (.node 1 (.leaf 1103979844868564224)
 (.leaf 1103992897600547200)))))
 (.node 8 (.node 4 (.node 2 (.node 1 (.leaf 1103993775703084288)
 (.leaf 1104371662610396160))
 (.node 1 (.leaf 1104501992939251968)
 (.leaf 1105469623722839296)))
 (.node 2 (.node 1 (.leaf 1105489595113433728)
 (.leaf 1105639218782226176))
 (.node 1 (.leaf 1106419862639260160)
 (.leaf 1106575043560289152))))
 (.node 4 (.node 2 (.node 1 (.leaf 1106705011122299520)
 (.leaf 1106804356049713792))
 (.node 1 (.leaf 1108431163617042176)
 (.leaf 1108448013179388416)))
 (.node 2 (.node 1 (.leaf 1108982949672015872)
 (.leaf 1109300633763531776))
 (.node 1 (.leaf 1109434402992439808)
 (.leaf 1110202230889065216))))))
 (.node 16 (.node 8 (.node 4 (.node 2 (.node 1 (.leaf 1110682464248715264)
 (.leaf 1110810821832851840))
 (.node 1 (.leaf 1111233321673754752)
 (.leaf 1112188781525308288)))
 (.node 2 (.node 1 (.leaf 1112346854037223040)
 (.leaf 1112414541505643264))
 (.node 1 (.leaf 1112642931030738176)
 (.leaf 1112817532671236992))))
 (.node 4 (.node 2 (.node 1 (.leaf 1112933264284097408)
 (.leaf 1113023891955447168))
 (.node 1 (.leaf 1113460912329139840)
 (.leaf 1113959978920087424)))
 (.node 2 (.node 1 (.leaf 1114234575479852416)
 (.leaf 1114363891938897920))
 (.node 1 (.leaf 1114761345505198080)
 (.leaf 1114764438147520768)))))
 (.node 8 (.node 4 (.node 2 (.node 1 (.leaf 1115082993792018944)
 (.leaf 1115198188453790080))
 (.node 1 (.leaf 1115413032207670656)
 (.leaf 1115681624012747776)))
 (.node 2 (.node 1 (.leaf 1116102344119004544)
 (.leaf 1116730973838283520))
 (.node 1 (.leaf 1117106086848996864)
 (.leaf 1117432041198673280))))
 (.node 4 (.node 2 (.node 1 (.leaf 1118293645836036224)
 (.leaf 1118364537894320896))
 (.node 1 (.leaf 1119066005194261888)
 (.leaf 1119210977647811712)))
 (.node 2 (.node 1 (.leaf 1119475444615864448)
 (.leaf 1119565125854262656))
 (.node 1 (.leaf 1120133215609997568)
 (.leaf 1120306916636844032)))))))
 (.node 32 (.node 16 (.node 8 (.node 4 (.node 2 (.node 1 (.leaf 1120401045568057856)
 (.leaf 1120558876431160832))
 (.node 1 (.leaf 1121221041364031232)
 (.leaf 1122303440805727488)))
 (.node 2 (.node 1 (.leaf 1122559615255724928)
 (.leaf 1122648785080790272))
 (.node 1 (.leaf 1122657865295744256)
 (.leaf 1122920632112167552))))
 (.node 4 (.node 2 (.node 1 (.leaf 1123216532553561728)
 (.leaf 1123365175249104896))
 (.node 1 (.leaf 1123632090363976960)
 (.leaf 1123894087213145600)))
 (.node 2 (.node 1 (.leaf 1124190996888183168)
 (.leaf 1124949710430073728))
 (.node 1 (.leaf 1124971163922931456)
 (.leaf 1125135322890192768)))))
 (.node 8 (.node 4 (.node 2 (.node 1 (.leaf 1126164481555398144)
 (.leaf 1126410136046034560))
 (.node 1 (.leaf 1126490943561195392)
 (.leaf 1126796592481223040)))
 (.node 2 (.node 1 (.leaf 1126919057553615872)
 (.leaf 1127080265945297408))
 (.node 1 (.leaf 1127449225198170880)
 (.leaf 1127658673683973120))))
 (.node 4 (.node 2 (.node 1 (.leaf 1128727931073804416)
 (.leaf 1129510279360310528))
 (.node 1 (.leaf 1130074740148407680)
 (.leaf 1130295197990218240)))
 (.node 2 (.node 1 (.leaf 1130647499147744896)
 (.leaf 1131795565143431296))
 (.node 1 (.leaf 1132093909733276800)
 (.leaf 1132128374083899264))))))
 (.node 16 (.node 8 (.node 4 (.node 2 (.node 1 (.leaf 1132178207632974720)
 (.leaf 1132207428648159744))
 (.node 1 (.leaf 1132642992416637824)
 (.leaf 1133096292754617600)))
 (.node 2 (.node 1 (.leaf 1134286904645858944)
 (.leaf 1134536430605689856))
 (.node 1 (.leaf 1134730595678466944)
 (.leaf 1135201985310779392))))
 (.node 4 (.node 2 (.node 1 (.leaf 1135637618027449344)
 (.leaf 1135955526598886272))
 (.node 1 (.leaf 1136280660895136896)
 (.leaf 1136650865821428352)))
 (.node 2 (.node 1 (.leaf 1136743563083023232)
 (.leaf 1138082646698029440))
 (.node 1 (.leaf 1138223528631376384)
 (.leaf 1139134448101707648)))))
 (.node 8 (.node 4 (.node 2 (.node 1 (.leaf 1139749237049628416)
 (.leaf 1139813790545443200))
 (.node 1 (.leaf 1139869819435188864)
 (.leaf 1140206150290338176)))
 (.node 2 (.node 1 (.leaf 1140413169227129088)
 (.leaf 1140693514888831488))
 (.node 1 (.leaf 1140728385219872384)
 (.leaf 1141187455071157120))))
 (.node 4 (.node 2 (.node 1 (.leaf 1141212524560056192)
 (.leaf 1141338397704389760))
 (.node 1 (.leaf 1141799185192050816)
 (.leaf 1142096144544211200)))
 (.node 2 (.node 1 (.leaf 1142231888766724480)
 (.leaf 1142390299549826432))
 (.node 1 (.leaf 1142732458092571520)
 (.leaf 1143498069434193408))))))))))
 (.node 256 (.node 128 (.node 64 (.node 32 (.node 16 (.node 8 (.node 4 (.node 2 (.node 1 (.leaf 1143901400973260160)
 (.leaf 1144326381011613824))
 (.node 1 (.leaf 1144536420844458752)
 (.leaf 1144864151822267904)))
 (.node 2 (.node 1 (.leaf 1145410935892366080)
 (.leaf 1145952216585425664))
 (.node 1 (.leaf 1146167538719845888)
 (.leaf 1146434494485366528))))
 (.node 4 (.node 2 (.node 1 (.leaf 1146532662299712512)
 (.leaf 1147429473943325696))
 (.node 1 (.leaf 1147847351303811968)
 (.leaf 1147917861592766976)))
 (.node 2 (.node 1 (.leaf 1147957852439457536)
 (.leaf 1149097614976507776))
 (.node 1 (.leaf 1149471692494905472)
 (.leaf 1150697895372933248)))))
 (.node 8 (.node 4 (.node 2 (.node 1 (.leaf 1150706994846040320)
 (.leaf 1150754384151963904))
 (.node 1 (.leaf 1150892948607847296)
 (.leaf 1151003380417289728)))
 (.node 2 (.node 1 (.leaf 1151133409462538496)
 (.leaf 1151446138928813568))
 (.node 1 (.leaf 1151843585996945664)
 (.leaf 1152341816981230336))))
 (.node 4 (.node 2 (.node 1 (.leaf 1153060337147548416)
 (.leaf 1153669740062622464))
 (.node 1 (.leaf 1154264199385383424)
 (.leaf 1154308464299723776)))
 (.node 2 (.node 1 (.leaf 1154349849064223744)
 (.leaf 1154355626029907712))
 (.node 1 (.leaf 1154368631237632000)
 (.leaf 1154470185650415104))))))
 (.node 16 (.node 8 (.node 4 (.node 2 (.node 1 (.leaf 1154843976137949184)
 (.leaf 1155060754669655296))
 (.node 1 (.leaf 1155113268014945024)
 (.leaf 1155452334325171200)))
 (.node 2 (.node 1 (.leaf 1155488715200909824)
 (.leaf 1156094637807917824))
 (.node 1 (.leaf 1157558956737293312)
 (.leaf 1157832139332695808))))
 (.node 4 (.node 2 (.node 1 (.leaf 1158218681478901504)
 (.leaf 1158290532093156096))
 (.node 1 (.leaf 1158365583265712896)
 (.leaf 1158511330774622976)))
 (.node 2 (.node 1 (.leaf 1158773012207113984)
 (.leaf 1158845511822276608))
 (.node 1 (.leaf 1159536987435266816)
 (.leaf 1159998743374744320)))))
 (.node 8 (.node 4 (.node 2 (.node 1 (.leaf 1160063332360753408)
 (.leaf 1160179529209033728))
 (.node 1 (.leaf 1160395387127965696)
 (.leaf 1160452735762732288)))
 (.node 2 (.node 1 (.leaf 1160663882863758080)
 (.leaf 1160869934284717568))
 (.node 1 (.leaf 1161087352337763584)
 (.leaf 1161152336771608064))))
 (.node 4 (.node 2 (.node 1 (.leaf 1161287615295121152)
 (.leaf 1161721786999824640))
 (.node 1 (.leaf 1162052374091566848)
 (.leaf 1162351523305592320)))
 (.node 2 (.node 1 (.leaf 1162606317949571328)
 (.leaf 1162872305505031936))
 (.node 1 (.leaf 1162883443385270528)
 (.leaf 1162917212619645696)))))))
 (.node 32 (.node 16 (.node 8 (.node 4 (.node 2 (.node 1 (.leaf 1163287918854274304)
 (.leaf 1163390765610099712))
 (.node 1 (.leaf 1163574433517581056)
 (.leaf 1163691424519240448)))
 (.node 2 (.node 1 (.leaf 1164135124829262592)
 (.leaf 1164202399374161920))
 (.node 1 (.leaf 1164628473060795136)
 (.leaf 1164830344227707392))))
 (.node 4 (.node 2 (.node 1 (.leaf 1166398222287287808)
 (.leaf 1166652346402817536))
 (.node 1 (.leaf 1166764904797307904)
 (.leaf 1166876273504920064)))
 (.node 2 (.node 1 (.leaf 1167161622635742720)
 (.leaf 1167528642106948864))
 (.node 1 (.leaf 1167581816632309504)
 (.leaf 1167819194779616512)))))
 (.node 8 (.node 4 (.node 2 (.node 1 (.leaf 1169101482668174080)
 (.leaf 1170082241839949824))
 (.node 1 (.leaf 1170540185186790144)
 (.leaf 1170603986455801856)))
 (.node 2 (.node 1 (.leaf 1170963122885277952)
 (.leaf 1171251472088915200))
 (.node 1 (.leaf 1172567935139705344)
 (.leaf 1172584090588920832))))
 (.node 4 (.node 2 (.node 1 (.leaf 1172612866269898752)
 (.leaf 1172797349195634432))
 (.node 1 (.leaf 1172995013631895552)
 (.leaf 1173501879407791616)))
 (.node 2 (.node 1 (.leaf 1173868855345829888)
 (.leaf 1173993119561868288))
 (.node 1 (.leaf 1174071310696339456)
 (.leaf 1174271068302377984))))))
 (.node 16 (.node 8 (.node 4 (.node 2 (.node 1 (.leaf 1175150306481109504)
 (.leaf 1175161603800234496))
 (.node 1 (.leaf 1175407531291039744)
 (.leaf 1175672596083862528)))
 (.node 2 (.node 1 (.leaf 1176392315048739072)
 (.leaf 1176750010729706240))
 (.node 1 (.leaf 1176952231721328896)
 (.leaf 1177298825772803584))))
 (.node 4 (.node 2 (.node 1 (.leaf 1177468020632043264)
 (.leaf 1177560472450817280))
 (.node 1 (.leaf 1177789800236670464)
 (.leaf 1177807904964167168)))
 (.node 2 (.node 1 (.leaf 1178369035504420352)
 (.leaf 1178752656890056192))
 (.node 1 (.leaf 1179240178598011648)
 (.leaf 1179425273548265728)))))
 (.node 8 (.node 4 (.node 2 (.node 1 (.leaf 1179473833953145600)
 (.leaf 1180351614844209664))
 (.node 1 (.leaf 1180504882001534720)
 (.leaf 1180805613658318848)))
 (.node 2 (.node 1 (.leaf 1181376193873305856)
 (.leaf 1181628923336499200))
 (.node 1 (.leaf 1182076653789053696)
 (.leaf 1182214121478142208))))
 (.node 4 (.node 2 (.node 1 (.leaf 1182241948580968448)
 (.leaf 1182375630643472384))
 (.node 1 (.leaf 1182971089507259648)
 (.leaf 1183430986687492608)))
 (.node 2 (.node 1 (.leaf 1183594161418157056)
 (.leaf 1184368382757416448))
 (.node 1 (.leaf 1185215350806494464)
 (.leaf 1185243595685681152))))))))
 (.node 64 (.node 32 (.node 16 (.node 8 (.node 4 (.node 2 (.node 1 (.leaf 1185258596300194560)
 (.leaf 1185476077339762432))
 (.node 1 (.leaf 1185889583812522496)
 (.leaf 1186013424960562432)))
 (.node 2 (.node 1 (.leaf 1186060254002977536)
 (.leaf 1186584985172920832))
 (.node 1 (.leaf 1186620021804585728)
 (.leaf 1186769258572294912))))
 (.node 4 (.node 2 (.node 1 (.leaf 1187578704802372864)
 (.leaf 1187693117335885824))
 (.node 1 (.leaf 1187778685072166144)
 (.leaf 1187983698399799552)))
 (.node 2 (.node 1 (.leaf 1188484548066980864)
 (.leaf 1188781278340817920))
 (.node 1 (.leaf 1188839209504958720)
 (.leaf 1189045725460721152)))))
 (.node 8 (.node 4 (.node 2 (.node 1 (.leaf 1189122745999687680)
 (.leaf 1189128924409895168))
 (.node 1 (.leaf 1189151327397487360)
 (.leaf 1189733543897816064)))
 (.node 2 (.node 1 (.leaf 1189921429385645056)
 (.leaf 1189938746165197568))
 (.node 1 (.leaf 1189945389604102144)
 (.leaf 1190062321027132672))))
 (.node 4 (.node 2 (.node 1 (.leaf 1190337724987624704)
 (.leaf 1190641070139289600))
 (.node 1 (.leaf 1190898788152835584)
 (.leaf 1190948974556476416)))
 (.node 2 (.node 1 (.leaf 1191304770601279232)
 (.leaf 1191445523364462592))
 (.node 1 (.leaf 1192529602050411776)
 (.leaf 1192580998593813248))))))
 (.node 16 (.node 8 (.node 4 (.node 2 (.node 1 (.leaf 1192992065103716608)
 (.leaf 1192996990757747712))
 (.node 1 (.leaf 1193321611521617408)
 (.leaf 1193934538660708864)))
 (.node 2 (.node 1 (.leaf 1194164793938096128)
 (.leaf 1194551785609118208))
 (.node 1 (.leaf 1194976808821609472)
 (.leaf 1195385582553710848))))
 (.node 4 (.node 2 (.node 1 (.leaf 1196476227188790528)
 (.leaf 1196565195708905216))
 (.node 1 (.leaf 1196789323374412032)
 (.leaf 1196791798071730176)))
 (.node 2 (.node 1 (.leaf 1197275695180891904)
 (.leaf 1197900557472259328))
 (.node 1 (.leaf 1197925724865588736)
 (.leaf 1198191029904860672)))))
 (.node 8 (.node 4 (.node 2 (.node 1 (.leaf 1198335424817919488)
 (.leaf 1198417025116742912))
 (.node 1 (.leaf 1198991524549523712)
 (.leaf 1199224886341350144)))
 (.node 2 (.node 1 (.leaf 1199309518578219520)
 (.leaf 1199826631499224832))
 (.node 1 (.leaf 1200076974301512448)
 (.leaf 1200101923525376768))))
 (.node 4 (.node 2 (.node 1 (.leaf 1200855477162539264)
 (.leaf 1200969866895986944))
 (.node 1 (.leaf 1201385473121328640)
 (.leaf 1201502087940976384)))
 (.node 2 (.node 1 (.leaf 1201504947405485056)
 (.leaf 1201657874600143104))
 (.node 1 (.leaf 1202095279753905408)
 (.leaf 1202125278915732480)))))))
 (.node 32 (.node 16 (.node 8 (.node 4 (.node 2 (.node 1 (.leaf 1202389213872426496)
 (.leaf 1202530377258668032))
 (.node 1 (.leaf 1203630482574133760)
 (.leaf 1205016234941032448)))
 (.node 2 (.node 1 (.leaf 1205088814837911552)
 (.leaf 1205093029567464448))
 (.node 1 (.leaf 1205240390742723840)
 (.leaf 1205543022893939200))))
 (.node 4 (.node 2 (.node 1 (.leaf 1205559725362223360)
 (.leaf 1205685932827815424))
 (.node 1 (.leaf 1206965296582337792)
 (.leaf 1207320514159536128)))
 (.node 2 (.node 1 (.leaf 1207577720572045568)
 (.leaf 1207986268024403968))
 (.node 1 (.leaf 1208222184203552512)
 (.leaf 1208501570011869184)))))
 (.node 8 (.node 4 (.node 2 (.node 1 (.leaf 1209834702356714496)
 (.leaf 1210137148816347136))
 (.node 1 (.leaf 1211029404371629568)
 (.leaf 1211245554970941184)))
 (.node 2 (.node 1 (.leaf 1211635496524083968)
 (.leaf 1211777493490666752))
 (.node 1 (.leaf 1212074016614507776)
 (.leaf 1212302445934427136))))
 (.node 4 (.node 2 (.node 1 (.leaf 1212484635374831616)
 (.leaf 1212818546646587392))
 (.node 1 (.leaf 1213193267427151360)
 (.leaf 1213423342734876928)))
 (.node 2 (.node 1 (.leaf 1213595336670181376)
 (.leaf 1213960934017687296))
 (.node 1 (.leaf 1214306529480855552)
 (.leaf 1214567508386858496))))))
 (.node 16 (.node 8 (.node 4 (.node 2 (.node 1 (.leaf 1214688748014448384)
 (.leaf 1214917646512033792))
 (.node 1 (.leaf 1214933881428183296)
 (.leaf 1214988236756009472)))
 (.node 2 (.node 1 (.leaf 1215775811238764544)
 (.leaf 1216298008139721984))
 (.node 1 (.leaf 1217836263546785280)
 (.leaf 1217882111842763008))))
 (.node 4 (.node 2 (.node 1 (.leaf 1217981113836873984)
 (.leaf 1218230261697584640))
 (.node 1 (.leaf 1218699614695956224)
 (.leaf 1218870395163899392)))
 (.node 2 (.node 1 (.leaf 1219977645797576192)
 (.leaf 1220018036342092288))
 (.node 1 (.leaf 1220214431563405056)
 (.leaf 1220962591273190400)))))
 (.node 8 (.node 4 (.node 2 (.node 1 (.leaf 1221578697201825536)
 (.leaf 1221785825754837760))
 (.node 1 (.leaf 1222310267595510784)
 (.leaf 1222690149434926592)))
 (.node 2 (.node 1 (.leaf 1222691517317369088)
 (.leaf 1222880713959074816))
 (.node 1 (.leaf 1223078971501157632)
 (.leaf 1223079161184023552))))
 (.node 4 (.node 2 (.node 1 (.leaf 1224658550464624896)
 (.leaf 1225649152248089344))
 (.node 1 (.leaf 1226222012627576832)
 (.leaf 1226391157079641344)))
 (.node 2 (.node 1 (.leaf 1226424481718664448)
 (.leaf 1227394907878716416))
 (.node 1 (.leaf 1227876610644273152)
 (.leaf 1228469543677816064)))))))))
 (.node 128 (.node 64 (.node 32 (.node 16 (.node 8 (.node 4 (.node 2 (.node 1 (.leaf 1228909340002951936)
 (.leaf 1229113077332009216))
 (.node 1 (.leaf 1230032224002584576)
 (.leaf 1230304700844576512)))
 (.node 2 (.node 1 (.leaf 1230457214342715392)
 (.leaf 1230963251671612672))
 (.node 1 (.leaf 1231006761667125760)
 (.leaf 1231379045086587904))))
 (.node 4 (.node 2 (.node 1 (.leaf 1231751303527550464)
 (.leaf 1232312354395804416))
 (.node 1 (.leaf 1232545099725153792)
 (.leaf 1232616920883939072)))
 (.node 2 (.node 1 (.leaf 1232840497538859008)
 (.leaf 1233112364920802816))
 (.node 1 (.leaf 1233127942259185408)
 (.leaf 1233206058299355648)))))
 (.node 8 (.node 4 (.node 2 (.node 1 (.leaf 1233554827318639872)
 (.leaf 1233832244690044160))
 (.node 1 (.leaf 1234077515497371136)
 (.leaf 1234147699082676480)))
 (.node 2 (.node 1 (.leaf 1234394759198492160)
 (.leaf 1234410367600434176))
 (.node 1 (.leaf 1234431190226465280)
 (.leaf 1234852472642240512))))
 (.node 4 (.node 2 (.node 1 (.leaf 1235067482687658752)
 (.leaf 1235444945604644608))
 (.node 1 (.leaf 1236279270845354496)
 (.leaf 1236311630567493120)))
 (.node 2 (.node 1 (.leaf 1236822829139327744)
 (.leaf 1237105036137312256))
 (.node 1 (.leaf 1237155966328528384)
 (.leaf 1237297382432674560))))))
 (.node 16 (.node 8 (.node 4 (.node 2 (.node 1 (.leaf 1237537793388772864)
 (.leaf 1238123411281734144))
 (.node 1 (.leaf 1238644225602382592)
 (.leaf 1238897281174817536)))
 (.node 2 (.node 1 (.leaf 1238923363611620608)
 (.leaf 1239045155539422976))
 (.node 1 (.leaf 1239450597810645504)
 (.leaf 1239990575991775744))))
 (.node 4 (.node 2 (.node 1 (.leaf 1240306398548928000)
 (.leaf 1241297425734732288))
 (.node 1 (.leaf 1241358875009304064)
 (.leaf 1241712606767017216)))
 (.node 2 (.node 1 (.leaf 1241903170147890432)
 (.leaf 1242703995348906240))
 (.node 1 (.leaf 1242736811036418304)
 (.leaf 1243117127298049280)))))
 (.node 8 (.node 4 (.node 2 (.node 1 (.leaf 1243227612795964416)
 (.leaf 1243257765409574144))
 (.node 1 (.leaf 1243966231281986304)
 (.leaf 1244021824354716672)))
 (.node 2 (.node 1 (.leaf 1244137936177946624)
 (.leaf 1244183609576518656))
 (.node 1 (.leaf 1244663319908102400)
 (.leaf 1244753540030734080))))
 (.node 4 (.node 2 (.node 1 (.leaf 1244855357982766080)
 (.leaf 1244951028514241536))
 (.node 1 (.leaf 1245203459652318464)
 (.leaf 1245273146912321792)))
 (.node 2 (.node 1 (.leaf 1245304396939817984)
 (.leaf 1245510199369537024))
 (.node 1 (.leaf 1245564385887370752)
 (.leaf 1245680926371709184)))))))
 (.node 32 (.node 16 (.node 8 (.node 4 (.node 2 (.node 1 (.leaf 1245846666776514048)
 (.leaf 1246057123537003264))
 (.node 1 (.leaf 1247486806423177472)
 (.leaf 1247489255538284800)))
 (.node 2 (.node 1 (.leaf 1247674249935695872)
 (.leaf 1247742841668510976))
 (.node 1 (.leaf 1247785133541977600)
 (.leaf 1247956241851498752))))
 (.node 4 (.node 2 (.node 1 (.leaf 1248067942409186048)
 (.leaf 1248992458226315008))
 (.node 1 (.leaf 1249010558195845376)
 (.leaf 1249041191112896256)))
 (.node 2 (.node 1 (.leaf 1249296674665800704)
 (.leaf 1249363379594969088))
 (.node 1 (.leaf 1249803421639559936)
 (.leaf 1249864285032070912)))))
 (.node 8 (.node 4 (.node 2 (.node 1 (.leaf 1250083571789586944)
 (.leaf 1250108220402057728))
 (.node 1 (.leaf 1250313081653167616)
 (.leaf 1250817764271053312)))
 (.node 2 (.node 1 (.leaf 1251532949415826944)
 (.leaf 1251695056454528256))
 (.node 1 (.leaf 1251796476578842880)
 (.leaf 1252378477467129344))))
 (.node 4 (.node 2 (.node 1 (.leaf 1253000023827396864)
 (.leaf 1253043474312217344))
 (.node 1 (.leaf 1254792525829822208)
 (.leaf 1255401579514217472)))
 (.node 2 (.node 1 (.leaf 1255466855210234112)
 (.leaf 1255500521513958912))
 (.node 1 (.leaf 1255542003631048704)
 (.leaf 1255542259249122304))))))
 (.node 16 (.node 8 (.node 4 (.node 2 (.node 1 (.leaf 1256108740175505152)
 (.leaf 1257204862492135936))
 (.node 1 (.leaf 1257473306409470720)
 (.leaf 1257535855752498432)))
 (.node 2 (.node 1 (.leaf 1257547503093924608)
 (.leaf 1258686643277668352))
 (.node 1 (.leaf 1258787681959231488)
 (.leaf 1258795849131484416))))
 (.node 4 (.node 2 (.node 1 (.leaf 1258947559174109952)
 (.leaf 1259277178219982592))
 (.node 1 (.leaf 1259713900219116288)
 (.leaf 1259977560376492800)))
 (.node 2 (.node 1 (.leaf 1260052586401060096)
 (.leaf 1260095725233192448))
 (.node 1 (.leaf 1261079870891814912)
 (.leaf 1261181011648006656)))))
 (.node 8 (.node 4 (.node 2 (.node 1 (.leaf 1261920959986729216)
 (.leaf 1262465775682491904))
 (.node 1 (.leaf 1262762996268942080)
 (.leaf 1263203926315976704)))
 (.node 2 (.node 1 (.leaf 1263475327501551872)
 (.leaf 1263839569744182784))
 (.node 1 (.leaf 1264074138584677888)
 (.leaf 1264629163797497088))))
 (.node 4 (.node 2 (.node 1 (.leaf 1264641208647740160)
 (.leaf 1265050161696876032))
 (.node 1 (.leaf 1265266721800514048)
 (.leaf 1265966184617446656)))
 (.node 2 (.node 1 (.leaf 1266249839373135616)
 (.leaf 1266417382309466112))
 (.node 1 (.leaf 1266675125422717952)
 (.leaf 1266691140054353920))))))))
 (.node 64 (.node 32 (.node 16 (.node 8 (.node 4 (.node 2 (.node 1 (.leaf 1267103264813723904)
 (.leaf 1267181330137947904))
 (.node 1 (.leaf 1267541412869536512)
 (.leaf 1267582392558555904)))
 (.node 2 (.node 1 (.leaf 1268738825490771456)
 (.leaf 1269025509961284864))
 (.node 1 (.leaf 1269565593884814592)
 (.leaf 1269717241896847872))))
 (.node 4 (.node 2 (.node 1 (.leaf 1270014692155543552)
 (.leaf 1270208623605881856))
 (.node 1 (.leaf 1270522335826238208)
 (.leaf 1271028191018933248)))
 (.node 2 (.node 1 (.leaf 1271198985197979648)
 (.leaf 1272173503830964480))
 (.node 1 (.leaf 1273135089260652800)
 (.leaf 1273418662928238080)))))
 (.node 8 (.node 4 (.node 2 (.node 1 (.leaf 1274014556713348352)
 (.leaf 1274213091623963648))
 (.node 1 (.leaf 1274244285924951296)
 (.leaf 1274373309903162880)))
 (.node 2 (.node 1 (.leaf 1274774940331502080)
 (.leaf 1274857732289335552))
 (.node 1 (.leaf 1275381546834532096)
 (.leaf 1275672094890776064))))
 (.node 4 (.node 2 (.node 1 (.leaf 1276799918964686080)
 (.leaf 1276875107648251136))
 (.node 1 (.leaf 1276949598273828096)
 (.leaf 1277012892461656832)))
 (.node 2 (.node 1 (.leaf 1277156955629622016)
 (.leaf 1277423512529338880))
 (.node 1 (.leaf 1277593833566215168)
 (.leaf 1278137542051761408))))))
 (.node 16 (.node 8 (.node 4 (.node 2 (.node 1 (.leaf 1278585341233472256)
 (.leaf 1278597663346928128))
 (.node 1 (.leaf 1278621522997506816)
 (.leaf 1279118386872719872)))
 (.node 2 (.node 1 (.leaf 1280063959193824512)
 (.leaf 1280249573403973376))
 (.node 1 (.leaf 1280351996563573504)
 (.leaf 1281178243125719040))))
 (.node 4 (.node 2 (.node 1 (.leaf 1281942333013746432)
 (.leaf 1282242333682165504))
 (.node 1 (.leaf 1282271420504253696)
 (.leaf 1282551973698262272)))
 (.node 2 (.node 1 (.leaf 1283230539489755392)
 (.leaf 1283435427172751104))
 (.node 1 (.leaf 1283450323908729600)
 (.leaf 1283458522505058304)))))
 (.node 8 (.node 4 (.node 2 (.node 1 (.leaf 1283626381926917632)
 (.leaf 1283684033066797568))
 (.node 1 (.leaf 1283812865318126592)
 (.leaf 1284242588026625280)))
 (.node 2 (.node 1 (.leaf 1285285918744941312)
 (.leaf 1285444479578111488))
 (.node 1 (.leaf 1285687776631849984)
 (.leaf 1285820521806981632))))
 (.node 4 (.node 2 (.node 1 (.leaf 1285962328881036032)
 (.leaf 1286046195478592256))
 (.node 1 (.leaf 1286428148316596224)
 (.leaf 1286569828893707520)))
 (.node 2 (.node 1 (.leaf 1286941445778069760)
 (.leaf 1286943306010544128))
 (.node 1 (.leaf 1287683387201452800)
 (.leaf 1287835199848620032)))))))
 (.node 32 (.node 16 (.node 8 (.node 4 (.node 2 (.node 1 (.leaf 1287883138474824192)
 (.leaf 1288737552826792192))
 (.node 1 (.leaf 1288773765846408448)
 (.leaf 1288957655047328256)))
 (.node 2 (.node 1 (.leaf 1288994436255570432)
 (.leaf 1289731360267455744))
 (.node 1 (.leaf 1289861314397629696)
 (.leaf 1290379283993294592))))
 (.node 4 (.node 2 (.node 1 (.leaf 1291887113361965824)
 (.leaf 1292737244148803584))
 (.node 1 (.leaf 1293963319129015296)
 (.leaf 1294460778734253824)))
 (.node 2 (.node 1 (.leaf 1295056109811388672)
 (.leaf 1295223894989296896))
 (.node 1 (.leaf 1295271633544233984)
 (.leaf 1295309002471984128)))))
 (.node 8 (.node 4 (.node 2 (.node 1 (.leaf 1295373058197866496)
 (.leaf 1295646460929340160))
 (.node 1 (.leaf 1296537385935035904)
 (.leaf 1299080382192882432)))
 (.node 2 (.node 1 (.leaf 1300231669882382848)
 (.leaf 1300927655185308672))
 (.node 1 (.leaf 1301038538191344640)
 (.leaf 1301466298482312960))))
 (.node 4 (.node 2 (.node 1 (.leaf 1301583846978292480)
 (.leaf 1303066508066172672))
 (.node 1 (.leaf 1303081160652041728)
 (.leaf 1303338463933929472)))
 (.node 2 (.node 1 (.leaf 1303365733897300736)
 (.leaf 1303399334465216256))
 (.node 1 (.leaf 1303506887814955776)
 (.leaf 1303640224180232960))))))
 (.node 16 (.node 8 (.node 4 (.node 2 (.node 1 (.leaf 1303683989986469376)
 (.leaf 1304738983273082368))
 (.node 1 (.leaf 1305029796676403712)
 (.leaf 1305078377814377472)))
 (.node 2 (.node 1 (.leaf 1305979470514424832)
 (.leaf 1306247122329086720))
 (.node 1 (.leaf 1306854478448364800)
 (.leaf 1308556575465498112))))
 (.node 4 (.node 2 (.node 1 (.leaf 1308666005207132928)
 (.leaf 1308690799373728256))
 (.node 1 (.leaf 1308859805433784576)
 (.leaf 1308859805433785088)))
 (.node 2 (.node 1 (.leaf 1309305436577769984)
 (.leaf 1309619702383168000))
 (.node 1 (.leaf 1309677408067045888)
 (.leaf 1310238534705141248)))))
 (.node 8 (.node 4 (.node 2 (.node 1 (.leaf 1310816477110278912)
 (.leaf 1310868275895851776))
 (.node 1 (.leaf 1311020728233648640)
 (.leaf 1311363864586470400)))
 (.node 2 (.node 1 (.leaf 1312512293142183424)
 (.leaf 1313389229500931328))
 (.node 1 (.leaf 1314423937946539776)
 (.leaf 1314541267275469056))))
 (.node 4 (.node 2 (.node 1 (.leaf 1314733207429647360)
 (.leaf 1315787523567638016))
 (.node 1 (.leaf 1316676114962520832)
 (.leaf 1316825632865037056)))
 (.node 2 (.node 1 (.leaf 1317125528374018816)
 (.leaf 1317285207709679104))
 (.node 1 (.leaf 1317689271057241088)
 (.leaf 1318343911411997440))))))))))))))
 (.node 2048 (.node 1024 (.node 512 (.node 256 (.node 128 (.node 64 (.node 32 (.node 16 (.node 8 (.node 4 (.node 2 (.node 1 (.leaf 1318578703167852800)
 (.leaf 1318938732570471424))
 (.node 1 (.leaf 1319119892358050560)
 (.leaf 1319476080285345536)))
 (.node 2 (.node 1 (.leaf 1319563577375975680)
 (.leaf 1319938069760977408))
 (.node 1 (.leaf 1320004472516967168)
 (.leaf 1320579198510461440))))
 (.node 4 (.node 2 (.node 1 (.leaf 1320646826717011968)
 (.leaf 1320713463055402496))
 (.node 1 (.leaf 1320988352401883136)
 (.leaf 1321218735917369600)))
 (.node 2 (.node 1 (.leaf 1321452568115438592)
 (.leaf 1321787928139903488))
 (.node 1 (.leaf 1322220175779960832)
 (.leaf 1322391568846474240)))))
 (.node 8 (.node 4 (.node 2 (.node 1 (.leaf 1322490784586878208)
 (.leaf 1323175315744407552))
 (.node 1 (.leaf 1323835633658567424)
 (.leaf 1324122320788786688)))
 (.node 2 (.node 1 (.leaf 1324211567157491200)
 (.leaf 1324360236903243776))
 (.node 1 (.leaf 1324370721057401600)
 (.leaf 1324507017329643776))))
 (.node 4 (.node 2 (.node 1 (.leaf 1324636817665027072)
 (.leaf 1325174709621102592))
 (.node 1 (.leaf 1325201490536472576)
 (.leaf 1325794081995435008)))
 (.node 2 (.node 1 (.leaf 1326003756589222912)
 (.leaf 1326290544973636608))
 (.node 1 (.leaf 1326292407105454080)
 (.leaf 1326391115749823488))))))
 (.node 16 (.node 8 (.node 4 (.node 2 (.node 1 (.leaf 1326838321759101184)
 (.leaf 1327118473755393024))
 (.node 1 (.leaf 1327397884811056384)
 (.leaf 1327473739492027136)))
 (.node 2 (.node 1 (.leaf 1327529113784522496)
 (.leaf 1328140112520263680))
 (.node 1 (.leaf 1328172859487115520)
 (.leaf 1328270054538861056))))
 (.node 4 (.node 2 (.node 1 (.leaf 1328716478071418368)
 (.leaf 1329242434105719552))
 (.node 1 (.leaf 1329594024526051072)
 (.leaf 1330937715538917888)))
 (.node 2 (.node 1 (.leaf 1331002483406135040)
 (.leaf 1331097167241956096))
 (.node 1 (.leaf 1331330006681116928)
 (.leaf 1331845849241158912)))))
 (.node 8 (.node 4 (.node 2 (.node 1 (.leaf 1332182274871863808)
 (.leaf 1332365888167174400))
 (.node 1 (.leaf 1333068217420112640)
 (.leaf 1333233209640768512)))
 (.node 2 (.node 1 (.leaf 1333747277487642112)
 (.leaf 1333816004326766336))
 (.node 1 (.leaf 1334115867509392128)
 (.leaf 1335755045063838464))))
 (.node 4 (.node 2 (.node 1 (.leaf 1336167803333829888)
 (.leaf 1336339563041142784))
 (.node 1 (.leaf 1336383827636982272)
 (.leaf 1336477854054614528)))
 (.node 2 (.node 1 (.leaf 1336712345654404864)
 (.leaf 1336897863711419392))
 (.node 1 (.leaf 1337100226346964736)
 (.leaf 1337107812492483072)))))))
 (.node 32 (.node 16 (.node 8 (.node 4 (.node 2 (.node 1 (.leaf 1337525269875259648)
 (.leaf 1338802910318539520))
 (.node 1 (.leaf 1339633259510623232)
 (.leaf 1340282276039112960)))
 (.node 2 (.node 1 (.leaf 1340325194912449024)
 (.leaf 1340567431949016064))
 (.node 1 (.leaf 1340914323574398976)
 (.leaf 1341430620400835584))))
 (.node 4 (.node 2 (.node 1 (.leaf 1341463291841735936)
 (.leaf 1341495163139322880))
 (.node 1 (.leaf 1341750970578535680)
 (.leaf 1341772568350917888)))
 (.node 2 (.node 1 (.leaf 1341860660128441088)
 (.leaf 1342450528430203392))
 (.node 1 (.leaf 1342505873944420864)
 (.leaf 1342526857176055040)))))
 (.node 8 (.node 4 (.node 2 (.node 1 (.leaf 1342866929506423296)
 (.leaf 1343765499877097984))
 (.node 1 (.leaf 1344620889722796288)
 (.leaf 1344824364382764800)))
 (.node 2 (.node 1 (.leaf 1344825226573170944)
 (.leaf 1345038400199612160))
 (.node 1 (.leaf 1345215670414657536)
 (.leaf 1345302920598555904))))
 (.node 4 (.node 2 (.node 1 (.leaf 1345666981756201472)
 (.leaf 1345684949217344512))
 (.node 1 (.leaf 1346238078988249088)
 (.leaf 1346298433481268736)))
 (.node 2 (.node 1 (.leaf 1346425780722193408)
 (.leaf 1346478001035331584))
 (.node 1 (.leaf 1347009006697088768)
 (.leaf 1347277357986682368))))))
 (.node 16 (.node 8 (.node 4 (.node 2 (.node 1 (.leaf 1347485994776040704)
 (.leaf 1348184338303010816))
 (.node 1 (.leaf 1348317067380898560)
 (.leaf 1348652270913258496)))
 (.node 2 (.node 1 (.leaf 1348950055710163456)
 (.leaf 1349421532950945536))
 (.node 1 (.leaf 1350170525921416960)
 (.leaf 1350607409905980160))))
 (.node 4 (.node 2 (.node 1 (.leaf 1350866256213688064)
 (.leaf 1350869357475115008))
 (.node 1 (.leaf 1351734337869509376)
 (.leaf 1351829395653808384)))
 (.node 2 (.node 1 (.leaf 1352867592998355456)
 (.leaf 1352909360938141952))
 (.node 1 (.leaf 1353522625806920448)
 (.leaf 1353705901093704960)))))
 (.node 8 (.node 4 (.node 2 (.node 1 (.leaf 1354335983622768640)
 (.leaf 1354438542708868352))
 (.node 1 (.leaf 1355228511785896960)
 (.leaf 1355296282714033664)))
 (.node 2 (.node 1 (.leaf 1355299779150200064)
 (.leaf 1355694131296706048))
 (.node 1 (.leaf 1355962118883017216)
 (.leaf 1356096456837577984))))
 (.node 4 (.node 2 (.node 1 (.leaf 1356104528140585984)
 (.leaf 1356234355044647680))
 (.node 1 (.leaf 1356257968993356544)
 (.leaf 1356348749803392256)))
 (.node 2 (.node 1 (.leaf 1356447906229326848)
 (.leaf 1356659658524960768))
 (.node 1 (.leaf 1357765976037097984)
 (.leaf 1357922999226569472))))))))
 (.node 64 (.node 32 (.node 16 (.node 8 (.node 4 (.node 2 (.node 1 (.leaf 1358164268712082432)
 (.leaf 1358361439729600512))
 (.node 1 (.leaf 1358569268827016960)
 (.leaf 1358715909435321344)))
 (.node 2 (.node 1 (.leaf 1359644576695589888)
 (.leaf 1359712631742624000))
 (.node 1 (.leaf 1359954240605512960)
 (.leaf 1360412208168500480))))
 (.node 4 (.node 2 (.node 1 (.leaf 1360722385289902336)
 (.leaf 1361345581161756160))
 (.node 1 (.leaf 1361542477716409344)
 (.leaf 1361948732303410432)))
 (.node 2 (.node 1 (.leaf 1363170500517172992)
 (.leaf 1363531774679876608))
 (.node 1 (.leaf 1363773952728395008)
 (.leaf 1364009881607921408)))))
 (.node 8 (.node 4 (.node 2 (.node 1 (.leaf 1364280189836572160)
 (.leaf 1364407800428820480))
 (.node 1 (.leaf 1364537777326901504)
 (.leaf 1365082355330093312)))
 (.node 2 (.node 1 (.leaf 1365144370019736832)
 (.leaf 1365229445986698240))
 (.node 1 (.leaf 1365277353795639808)
 (.leaf 1365587560114295296))))
 (.node 4 (.node 2 (.node 1 (.leaf 1365592616222827008)
 (.leaf 1366234431995124480))
 (.node 1 (.leaf 1366489647520471296)
 (.leaf 1366579698181632000)))
 (.node 2 (.node 1 (.leaf 1366674378240902400)
 (.leaf 1366953102143389696))
 (.node 1 (.leaf 1369412099142188288)
 (.leaf 1369722451407394560))))))
 (.node 16 (.node 8 (.node 4 (.node 2 (.node 1 (.leaf 1369800187937522176)
 (.leaf 1369828886447229696))
 (.node 1 (.leaf 1370447859887704064)
 (.leaf 1371677189151463936)))
 (.node 2 (.node 1 (.leaf 1372245757054880256)
 (.leaf 1372567982854083584))
 (.node 1 (.leaf 1372631410519471360)
 (.leaf 1373660438011710976))))
 (.node 4 (.node 2 (.node 1 (.leaf 1374321292482543360)
 (.leaf 1375218741904837120))
 (.node 1 (.leaf 1376144528310118912)
 (.leaf 1376187322998523904)))
 (.node 2 (.node 1 (.leaf 1376435369793863424)
 (.leaf 1376593539959631872))
 (.node 1 (.leaf 1376784286650557952)
 (.leaf 1377278138513239552)))))
 (.node 8 (.node 4 (.node 2 (.node 1 (.leaf 1377300359891931136)
 (.leaf 1377406026600720640))
 (.node 1 (.leaf 1377517913695052800)
 (.leaf 1378419955653838592)))
 (.node 2 (.node 1 (.leaf 1379219515893790720)
 (.leaf 1380024052357278976))
 (.node 1 (.leaf 1380451078425048576)
 (.leaf 1380647430269823488))))
 (.node 4 (.node 2 (.node 1 (.leaf 1381264217762663424)
 (.leaf 1381438813980924160))
 (.node 1 (.leaf 1382147301947217152)
 (.leaf 1382176975671464192)))
 (.node 2 (.node 1 (.leaf 1382282784973668864)
 (.leaf 1382306985297835776))
 (.node 1 (.leaf 1383428465180007936)
 (.leaf 1383436912350795008)))))))
 (.node 32 (.node 16 (.node 8 (.node 4 (.node 2 (.node 1 (.leaf 1384384671486160640)
 (.leaf 1384654405524366336))
 (.node 1 (.leaf 1384756930776157440)
 (.leaf 1384854123742149888)))
 (.node 2 (.node 1 (.leaf 1385161507526317312)
 (.leaf 1385237945696523264))
 (.node 1 (.leaf 1385260883222872832)
 (.leaf 1386110327240208128))))
 (.node 4 (.node 2 (.node 1 (.leaf 1386791181493747968)
 (.leaf 1386980644279519488))
 (.node 1 (.leaf 1387194942373936896)
 (.leaf 1387272194564609280)))
 (.node 2 (.node 1 (.leaf 1387471811845087744)
 (.leaf 1388110665431585792))
 (.node 1 (.leaf 1389041830066913024)
 (.leaf 1389268567163032320)))))
 (.node 8 (.node 4 (.node 2 (.node 1 (.leaf 1389531347579355392)
 (.leaf 1390931303125849856))
 (.node 1 (.leaf 1391336029274727424)
 (.leaf 1392355701654551296)))
 (.node 2 (.node 1 (.leaf 1392509485702508288)
 (.leaf 1392625876090547456))
 (.node 1 (.leaf 1392760085028283136)
 (.leaf 1392915494998439424))))
 (.node 4 (.node 2 (.node 1 (.leaf 1393150925864458496)
 (.leaf 1393229545014360576))
 (.node 1 (.leaf 1393437363577671424)
 (.leaf 1393735501508600832)))
 (.node 2 (.node 1 (.leaf 1394181584096676608)
 (.leaf 1394879535870411776))
 (.node 1 (.leaf 1395167016093233408)
 (.leaf 1395531633298082048))))))
 (.node 16 (.node 8 (.node 4 (.node 2 (.node 1 (.leaf 1396148206315311360)
 (.leaf 1396656708839972608))
 (.node 1 (.leaf 1397255705492425216)
 (.leaf 1397273162417325312)))
 (.node 2 (.node 1 (.leaf 1397804192609727744)
 (.leaf 1398250911641014784))
 (.node 1 (.leaf 1399473375256425728)
 (.leaf 1399480250533771776))))
 (.node 4 (.node 2 (.node 1 (.leaf 1399646504425035776)
 (.leaf 1400124930903983360))
 (.node 1 (.leaf 1400402905667377408)
 (.leaf 1401234152649012480)))
 (.node 2 (.node 1 (.leaf 1401343556690793728)
 (.leaf 1402100469005587456))
 (.node 1 (.leaf 1402533444862126336)
 (.leaf 1402734310555917824)))))
 (.node 8 (.node 4 (.node 2 (.node 1 (.leaf 1402870471268657408)
 (.leaf 1403024706234331904))
 (.node 1 (.leaf 1403386707410037760)
 (.leaf 1403878937180540416)))
 (.node 2 (.node 1 (.leaf 1404122844061661696)
 (.leaf 1404825676512359168))
 (.node 1 (.leaf 1405234975492738048)
 (.leaf 1405234975492738304))))
 (.node 4 (.node 2 (.node 1 (.leaf 1405234975492738560)
 (.leaf 1406239866692249600))
 (.node 1 (.leaf 1406325058223167232)
 (.leaf 1406377107240603648)))
 (.node 2 (.node 1 (.leaf 1406858282241554944)
 (.leaf 1406903894654252288))
 (.node 1 (.leaf 1407259872405764352)
 (.leaf 1407312773231145216)))))))))
 (.node 128 (.node 64 (.node 32 (.node 16 (.node 8 (.node 4 (.node 2 (.node 1 (.leaf 1407491464402117632)
 (.leaf 1407981854378155264))
 (.node 1 (.leaf 1408101946545887744)
 (.leaf 1409217240077800704)))
 (.node 2 (.node 1 (.leaf 1409256668274941696)
 (.leaf 1410430367077690880))
 (.node 1 (.leaf 1410743048529886208)
 (.leaf 1410991253076978688))))
 (.node 4 (.node 2 (.node 1 (.leaf 1411023409952088576)
 (.leaf 1411195525146040064))
 (.node 1 (.leaf 1411291647885044992)
 (.leaf 1411426657448857344)))
 (.node 2 (.node 1 (.leaf 1411457787738015232)
 (.leaf 1411472984095382016))
 (.node 1 (.leaf 1411613922784983552)
 (.leaf 1412621519306095872)))))
 (.node 8 (.node 4 (.node 2 (.node 1 (.leaf 1412742271859449088)
 (.leaf 1413245466212215040))
 (.node 1 (.leaf 1413773419630057728)
 (.leaf 1414603252909119744)))
 (.node 2 (.node 1 (.leaf 1415307958097948672)
 (.leaf 1415338831960428800))
 (.node 1 (.leaf 1415468740418770688)
 (.leaf 1415585319374541824))))
 (.node 4 (.node 2 (.node 1 (.leaf 1416341094606354944)
 (.leaf 1416427078204685312))
 (.node 1 (.leaf 1416769490956682496)
 (.leaf 1418669167277792256)))
 (.node 2 (.node 1 (.leaf 1419576321422610944)
 (.leaf 1419914678862407424))
 (.node 1 (.leaf 1420350476309365504)
 (.leaf 1420811527224273920))))))
 (.node 16 (.node 8 (.node 4 (.node 2 (.node 1 (.leaf 1421034591291456768)
 (.leaf 1421084615650160896))
 (.node 1 (.leaf 1421137875005825280)
 (.leaf 1421402378830143744)))
 (.node 2 (.node 1 (.leaf 1421639786637249280)
 (.leaf 1422014881610191872))
 (.node 1 (.leaf 1422281212160248064)
 (.leaf 1422401669250184704))))
 (.node 4 (.node 2 (.node 1 (.leaf 1422813895638355968)
 (.leaf 1423372170287696896))
 (.node 1 (.leaf 1423578056219184640)
 (.leaf 1423923792037405952)))
 (.node 2 (.node 1 (.leaf 1424001794053081600)
 (.leaf 1424272459584467712))
 (.node 1 (.leaf 1424373302002471168)
 (.leaf 1424516641670250752)))))
 (.node 8 (.node 4 (.node 2 (.node 1 (.leaf 1424739964702847488)
 (.leaf 1424750496439240704))
 (.node 1 (.leaf 1424841934557792000)
 (.leaf 1426387322883608064)))
 (.node 2 (.node 1 (.leaf 1426999110317554176)
 (.leaf 1427030558282758144))
 (.node 1 (.leaf 1427146466025160448)
 (.leaf 1427845102735235328))))
 (.node 4 (.node 2 (.node 1 (.leaf 1427947516453581056)
 (.leaf 1428257762762032384))
 (.node 1 (.leaf 1428773731827480320)
 (.leaf 1428917776046241280)))
 (.node 2 (.node 1 (.leaf 1429073954659818496)
 (.leaf 1430289256192850176))
 (.node 1 (.leaf 1430338819928757248)
 (.leaf 1430427673175756800)))))))
 (.node 32 (.node 16 (.node 8 (.node 4 (.node 2 (.node 1 (.leaf 1430962967955890176)
 (.leaf 1431158286554107392))
 (.node 1 (.leaf 1431487327966829312)
 (.leaf 1432050983541079552)))
 (.node 2 (.node 1 (.leaf 1432105987895167488)
 (.leaf 1433805084834450176))
 (.node 1 (.leaf 1434402100536502272)
 (.leaf 1434832628374735104))))
 (.node 4 (.node 2 (.node 1 (.leaf 1434982999735536128)
 (.leaf 1435523572311436544))
 (.node 1 (.leaf 1436139339171855872)
 (.leaf 1436315854958860544)))
 (.node 2 (.node 1 (.leaf 1436981226308729088)
 (.leaf 1437255666179778304))
 (.node 1 (.leaf 1437873257526946048)
 (.leaf 1439081330969903616)))))
 (.node 8 (.node 4 (.node 2 (.node 1 (.leaf 1439177306750472960)
 (.leaf 1439309968916570112))
 (.node 1 (.leaf 1439726645850910976)
 (.leaf 1439998924297836288)))
 (.node 2 (.node 1 (.leaf 1441041697002796800)
 (.leaf 1441241917538418944))
 (.node 1 (.leaf 1441511456584587776)
 (.leaf 1441569561703546112))))
 (.node 4 (.node 2 (.node 1 (.leaf 1442600011381504000)
 (.leaf 1442801727851875584))
 (.node 1 (.leaf 1442854520425095424)
 (.leaf 1442996033471066368)))
 (.node 2 (.node 1 (.leaf 1443238273646093056)
 (.leaf 1444084262648944896))
 (.node 1 (.leaf 1444241998651179264)
 (.leaf 1444697776899269120))))))
 (.node 16 (.node 8 (.node 4 (.node 2 (.node 1 (.leaf 1444712331544803328)
 (.leaf 1445201257156189696))
 (.node 1 (.leaf 1445715261476617472)
 (.leaf 1445873372641842432)))
 (.node 2 (.node 1 (.leaf 1446391445520554496)
 (.leaf 1446565023410532096))
 (.node 1 (.leaf 1447637381205813504)
 (.leaf 1447715140633923584))))
 (.node 4 (.node 2 (.node 1 (.leaf 1447945151195337728)
 (.leaf 1448081694291224832))
 (.node 1 (.leaf 1448119264500873216)
 (.leaf 1448798664195643648)))
 (.node 2 (.node 1 (.leaf 1449711453879930880)
 (.leaf 1449795223933711104))
 (.node 1 (.leaf 1450431807909440512)
 (.leaf 1450833304886800128)))))
 (.node 8 (.node 4 (.node 2 (.node 1 (.leaf 1452291920286544640)
 (.leaf 1452423135394457600))
 (.node 1 (.leaf 1453075009627448064)
 (.leaf 1453915882234505728)))
 (.node 2 (.node 1 (.leaf 1455030060460663040)
 (.leaf 1455134617233689856))
 (.node 1 (.leaf 1455810950926095104)
 (.leaf 1455903520468543232))))
 (.node 4 (.node 2 (.node 1 (.leaf 1456553215858199296)
 (.leaf 1456846454550831872))
 (.node 1 (.leaf 1457105956569398272)
 (.leaf 1457183609490767104)))
 (.node 2 (.node 1 (.leaf 1457490539944654336)
 (.leaf 1457781948071441664))
 (.node 1 (.leaf 1458005270495827200)
 (.leaf 1458452179031709952))))))))
 (.node 64 (.node 32 (.node 16 (.node 8 (.node 4 (.node 2 (.node 1 (.leaf 1459077608161721088)
 (.leaf 1459081691735920128))
 (.node 1 (.leaf 1459242290599042816)
 (.leaf 1459315202163819776)))
 (.node 2 (.node 1 (.leaf 1460295994286700544)
 (.leaf 1460514499055596544))
 (.node 1 (.leaf 1461444466490814464)
 (.leaf 1462089289974118912))))
 (.node 4 (.node 2 (.node 1 (.leaf 1462278424465561600)
 (.leaf 1462395724760202752))
 (.node 1 (.leaf 1462646840548412672)
 (.leaf 1462987833974660352)))
 (.node 2 (.node 1 (.leaf 1463471872211081216)
 (.leaf 1463691671736502784))
 (.node 1 (.leaf 1465580398581948416)
 (.leaf 1466622170919606016)))))
 (.node 8 (.node 4 (.node 2 (.node 1 (.leaf 1467037631615739136)
 (.leaf 1467236236858018048))
 (.node 1 (.leaf 1467743142321499904)
 (.leaf 1467797846421775104)))
 (.node 2 (.node 1 (.leaf 1468239829080238848)
 (.leaf 1469382188331800832))
 (.node 1 (.leaf 1469624653380517376)
 (.leaf 1470278272101851648))))
 (.node 4 (.node 2 (.node 1 (.leaf 1470636256558854144)
 (.leaf 1471041309586318336))
 (.node 1 (.leaf 1471232306929170176)
 (.leaf 1471450821161570048)))
 (.node 2 (.node 1 (.leaf 1471494853966393600)
 (.leaf 1471980478201856256))
 (.node 1 (.leaf 1472256951760715008)
 (.leaf 1473338075286991360))))))
 (.node 16 (.node 8 (.node 4 (.node 2 (.node 1 (.leaf 1473369897798253312)
 (.leaf 1473424412226679296))
 (.node 1 (.leaf 1474022506763356672)
 (.leaf 1474031692093731840)))
 (.node 2 (.node 1 (.leaf 1474346196623739904)
 (.leaf 1474496669555864064))
 (.node 1 (.leaf 1474903916065073408)
 (.leaf 1474920209311137280))))
 (.node 4 (.node 2 (.node 1 (.leaf 1475149519470243328)
 (.leaf 1475150095289985792))
 (.node 1 (.leaf 1475304991129516032)
 (.leaf 1475841827502167552)))
 (.node 2 (.node 1 (.leaf 1475951460304303104)
 (.leaf 1476953533571857664))
 (.node 1 (.leaf 1477681333204835328)
 (.leaf 1478412297994779136)))))
 (.node 8 (.node 4 (.node 2 (.node 1 (.leaf 1479359041929387264)
 (.leaf 1479472781692627712))
 (.node 1 (.leaf 1479887977415459328)
 (.leaf 1480477744481411840)))
 (.node 2 (.node 1 (.leaf 1481272819790284544)
 (.leaf 1481654411005164544))
 (.node 1 (.leaf 1482030848547347968)
 (.leaf 1482673298097439232))))
 (.node 4 (.node 2 (.node 1 (.leaf 1482805039560093184)
 (.leaf 1483098439183724544))
 (.node 1 (.leaf 1484232849896948992)
 (.leaf 1484676584331250688)))
 (.node 2 (.node 1 (.leaf 1485324397651128576)
 (.leaf 1485465855834846464))
 (.node 1 (.leaf 1485604915628589824)
 (.leaf 1486175473894217728)))))))
 (.node 32 (.node 16 (.node 8 (.node 4 (.node 2 (.node 1 (.leaf 1486517916348175104)
 (.leaf 1486671509791648768))
 (.node 1 (.leaf 1486818997960295936)
 (.leaf 1487122076465183232)))
 (.node 2 (.node 1 (.leaf 1487811960358015744)
 (.leaf 1488618056277368832))
 (.node 1 (.leaf 1488915522745326848)
 (.leaf 1489160945650334976))))
 (.node 4 (.node 2 (.node 1 (.leaf 1490146618989844480)
 (.leaf 1490147218397665280))
 (.node 1 (.leaf 1490401240200043008)
 (.leaf 1490964439545163776)))
 (.node 2 (.node 1 (.leaf 1491042537405394944)
 (.leaf 1491113841953615360))
 (.node 1 (.leaf 1491407490835584256)
 (.leaf 1491982012339339008)))))
 (.node 8 (.node 4 (.node 2 (.node 1 (.leaf 1492270640979584512)
 (.leaf 1492792052292510208))
 (.node 1 (.leaf 1493484151859107840)
 (.leaf 1493761154349690112)))
 (.node 2 (.node 1 (.leaf 1494334217981199872)
 (.leaf 1494868442040211456))
 (.node 1 (.leaf 1495446461269305856)
 (.leaf 1496049108446138880))))
 (.node 4 (.node 2 (.node 1 (.leaf 1496310403473655552)
 (.leaf 1497637972153046016))
 (.node 1 (.leaf 1497728243248631040)
 (.leaf 1498867441631422208)))
 (.node 2 (.node 1 (.leaf 1499006360078806272)
 (.leaf 1499368710073803520))
 (.node 1 (.leaf 1499566430105711104)
 (.leaf 1500561329909126400))))))
 (.node 16 (.node 8 (.node 4 (.node 2 (.node 1 (.leaf 1500828002655970816)
 (.leaf 1500898829132521216))
 (.node 1 (.leaf 1501246816206828800)
 (.leaf 1501291972997372416)))
 (.node 2 (.node 1 (.leaf 1501684119430285824)
 (.leaf 1501713547020217856))
 (.node 1 (.leaf 1501810326497307136)
 (.leaf 1501965280327428096))))
 (.node 4 (.node 2 (.node 1 (.leaf 1502472119809910272)
 (.leaf 1502489772534391040))
 (.node 1 (.leaf 1502576538144942080)
 (.leaf 1502924969270094848)))
 (.node 2 (.node 1 (.leaf 1503007380170752256)
 (.leaf 1503638357929987328))
 (.node 1 (.leaf 1503781501744457984)
 (.leaf 1504866869974863616)))))
 (.node 8 (.node 4 (.node 2 (.node 1 (.leaf 1504911103387037696)
 (.leaf 1506344849882392576))
 (.node 1 (.leaf 1507005642301389824)
 (.leaf 1507169396227713536)))
 (.node 2 (.node 1 (.leaf 1507662609663237120)
 (.leaf 1509401605166342144))
 (.node 1 (.leaf 1509412452868136704)
 (.leaf 1509663190058765056))))
 (.node 4 (.node 2 (.node 1 (.leaf 1509718053478554112)
 (.leaf 1510091073673661440))
 (.node 1 (.leaf 1511444653115288576)
 (.leaf 1511556338146927616)))
 (.node 2 (.node 1 (.leaf 1511664409426838016)
 (.leaf 1511714774567446528))
 (.node 1 (.leaf 1512244503262961408)
 (.leaf 1512733643048687872))))))))))
 (.node 256 (.node 128 (.node 64 (.node 32 (.node 16 (.node 8 (.node 4 (.node 2 (.node 1 (.leaf 1512870046890046720)
 (.leaf 1513364057306343936))
 (.node 1 (.leaf 1514290495554156544)
 (.leaf 1514631273912711168)))
 (.node 2 (.node 1 (.leaf 1514645659521780736)
 (.leaf 1514976580889646592))
 (.node 1 (.leaf 1515085524997771520)
 (.leaf 1515610727088627712))))
 (.node 4 (.node 2 (.node 1 (.leaf 1515850430721621760)
 (.leaf 1517231803243403520))
 (.node 1 (.leaf 1517300346110054144)
 (.leaf 1517467417722375168)))
 (.node 2 (.node 1 (.leaf 1517822326266573056)
 (.leaf 1517993463060070656))
 (.node 1 (.leaf 1519716957824180736)
 (.leaf 1522074420087830272)))))
 (.node 8 (.node 4 (.node 2 (.node 1 (.leaf 1523890121888012544)
 (.leaf 1524218568788979456))
 (.node 1 (.leaf 1524798591188891648)
 (.leaf 1525329945170296832)))
 (.node 2 (.node 1 (.leaf 1527658268026436864)
 (.leaf 1528022989408742144))
 (.node 1 (.leaf 1529468337646626048)
 (.leaf 1529511032023862528))))
 (.node 4 (.node 2 (.node 1 (.leaf 1531895141631170048)
 (.leaf 1532330415414365952))
 (.node 1 (.leaf 1533885734160651008)
 (.leaf 1534067513959397888)))
 (.node 2 (.node 1 (.leaf 1534168325355656704)
 (.leaf 1534407245607636736))
 (.node 1 (.leaf 1534710205413003008)
 (.leaf 1534841360828890112))))))
 (.node 16 (.node 8 (.node 4 (.node 2 (.node 1 (.leaf 1536378585854830080)
 (.leaf 1536410841739532544))
 (.node 1 (.leaf 1536720506235100416)
 (.leaf 1537030114229315584)))
 (.node 2 (.node 1 (.leaf 1537087332680924416)
 (.leaf 1537229314681386496))
 (.node 1 (.leaf 1538589572094534400)
 (.leaf 1539328300472801280))))
 (.node 4 (.node 2 (.node 1 (.leaf 1539391050668644864)
 (.leaf 1539614998376700416))
 (.node 1 (.leaf 1540283333511637248)
 (.leaf 1540809751485040128)))
 (.node 2 (.node 1 (.leaf 1541067843091139328)
 (.leaf 1541135701641277440))
 (.node 1 (.leaf 1542201238510047744)
 (.leaf 1543322813334029568)))))
 (.node 8 (.node 4 (.node 2 (.node 1 (.leaf 1543446116347574016)
 (.leaf 1543812798157845760))
 (.node 1 (.leaf 1543867299808603392)
 (.leaf 1544067909098718720)))
 (.node 2 (.node 1 (.leaf 1545144072189935360)
 (.leaf 1546055640142513664))
 (.node 1 (.leaf 1546869900968087296)
 (.leaf 1547101602473808640))))
 (.node 4 (.node 2 (.node 1 (.leaf 1547997766647801856)
 (.leaf 1548841992141277696))
 (.node 1 (.leaf 1549906983517860608)
 (.leaf 1550974171076901632)))
 (.node 2 (.node 1 (.leaf 1551424976633639936)
 (.leaf 1551708588945487360))
 (.node 1 (.leaf 1552044475772238080)
 (.leaf 1552197740362130176)))))))
 (.node 32 (.node 16 (.node 8 (.node 4 (.node 2 (.node 1 (.leaf 1552897439357918208)
 (.leaf 1553584992296028416))
 (.node 1 (.leaf 1553718702808292608)
 (.leaf 1554099410985988096)))
 (.node 2 (.node 1 (.leaf 1554342088200567552)
 (.leaf 1554441878732050432))
 (.node 1 (.leaf 1554727279926230528)
 (.leaf 1554792066744432640))))
 (.node 4 (.node 2 (.node 1 (.leaf 1555960946503133696)
 (.leaf 1556416045962157056))
 (.node 1 (.leaf 1556490389461543936)
 (.leaf 1556839857727181056)))
 (.node 2 (.node 1 (.leaf 1557076988644852480)
 (.leaf 1557929142977462272))
 (.node 1 (.leaf 1558023423970226176)
 (.leaf 1558350232234070784)))))
 (.node 8 (.node 4 (.node 2 (.node 1 (.leaf 1558773554882366464)
 (.leaf 1559504474679796224))
 (.node 1 (.leaf 1559681344676055296)
 (.leaf 1559720424604336640)))
 (.node 2 (.node 1 (.leaf 1560526134835672320)
 (.leaf 1560549503632687104))
 (.node 1 (.leaf 1560584877163842560)
 (.leaf 1560688518594220032))))
 (.node 4 (.node 2 (.node 1 (.leaf 1561173276319675904)
 (.leaf 1561173276319676160))
 (.node 1 (.leaf 1561532080146922240)
 (.leaf 1564469523734158336)))
 (.node 2 (.node 1 (.leaf 1564808315820058880)
 (.leaf 1565109625804965632))
 (.node 1 (.leaf 1565814561035585280)
 (.leaf 1566188740416710400))))))
 (.node 16 (.node 8 (.node 4 (.node 2 (.node 1 (.leaf 1566814538975499008)
 (.leaf 1567406926768749568))
 (.node 1 (.leaf 1568104767712559104)
 (.leaf 1568237022252728320)))
 (.node 2 (.node 1 (.leaf 1568942383310608128)
 (.leaf 1569203942888863232))
 (.node 1 (.leaf 1569540653469182208)
 (.leaf 1570304588352556032))))
 (.node 4 (.node 2 (.node 1 (.leaf 1570641040722125568)
 (.leaf 1570979985161095424))
 (.node 1 (.leaf 1570985596565992192)
 (.leaf 1572044721611024640)))
 (.node 2 (.node 1 (.leaf 1572259900733169408)
 (.leaf 1572637606987960576))
 (.node 1 (.leaf 1572797090431566592)
 (.leaf 1572951866494004480)))))
 (.node 8 (.node 4 (.node 2 (.node 1 (.leaf 1574484966104596480)
 (.leaf 1574489879482017280))
 (.node 1 (.leaf 1574756994636732160)
 (.leaf 1575328144773257728)))
 (.node 2 (.node 1 (.leaf 1575790361056652288)
 (.leaf 1576371164417427712))
 (.node 1 (.leaf 1577170988467819520)
 (.leaf 1577643987313342976))))
 (.node 4 (.node 2 (.node 1 (.leaf 1578117126066814208)
 (.leaf 1578594313596210944))
 (.node 1 (.leaf 1579463755419579392)
 (.leaf 1580400715146054912)))
 (.node 2 (.node 1 (.leaf 1580447138628258560)
 (.leaf 1580649008189840128))
 (.node 1 (.leaf 1580670142274992896)
 (.leaf 1580772574380315648))))))))
 (.node 64 (.node 32 (.node 16 (.node 8 (.node 4 (.node 2 (.node 1 (.leaf 1582128983460698112)
 (.leaf 1583132978681572352))
 (.node 1 (.leaf 1583245976195208192)
 (.leaf 1583262735418998528)))
 (.node 2 (.node 1 (.leaf 1583468794480393728)
 (.leaf 1583524643179519232))
 (.node 1 (.leaf 1583570993914601472)
 (.leaf 1583581380531540736))))
 (.node 4 (.node 2 (.node 1 (.leaf 1583679661470379008)
 (.leaf 1583690824448477440))
 (.node 1 (.leaf 1584149633992976128)
 (.leaf 1584484473794839552)))
 (.node 2 (.node 1 (.leaf 1584736053811149568)
 (.leaf 1584915991945630720))
 (.node 1 (.leaf 1585811671192368128)
 (.leaf 1589781573739932160)))))
 (.node 8 (.node 4 (.node 2 (.node 1 (.leaf 1592801703377261312)
 (.leaf 1592859925734066432))
 (.node 1 (.leaf 1592958491579702784)
 (.leaf 1593569775513726720)))
 (.node 2 (.node 1 (.leaf 1593668152121759488)
 (.leaf 1594184337348957440))
 (.node 1 (.leaf 1594229837136364288)
 (.leaf 1594347595314685184))))
 (.node 4 (.node 2 (.node 1 (.leaf 1594781230383810048)
 (.leaf 1595554947017585408))
 (.node 1 (.leaf 1596269006158334464)
 (.leaf 1597287508413066240)))
 (.node 2 (.node 1 (.leaf 1597812281380744960)
 (.leaf 1597993788653433344))
 (.node 1 (.leaf 1598036176051747072)
 (.leaf 1598729740062430464))))))
 (.node 16 (.node 8 (.node 4 (.node 2 (.node 1 (.leaf 1598830853034216704)
 (.leaf 1598866912743199744))
 (.node 1 (.leaf 1599793181992043008)
 (.leaf 1600205028156044288)))
 (.node 2 (.node 1 (.leaf 1600720530956143616)
 (.leaf 1602376818744186624))
 (.node 1 (.leaf 1602676670762760192)
 (.leaf 1603300641980723968))))
 (.node 4 (.node 2 (.node 1 (.leaf 1603400074534951936)
 (.leaf 1604144540372551680))
 (.node 1 (.leaf 1604948675444667392)
 (.leaf 1605954674714710016)))
 (.node 2 (.node 1 (.leaf 1606080920241832192)
 (.leaf 1606727212582541056))
 (.node 1 (.leaf 1606969488695082752)
 (.leaf 1607843505116978944)))))
 (.node 8 (.node 4 (.node 2 (.node 1 (.leaf 1607869369497421824)
 (.leaf 1608849879968914944))
 (.node 1 (.leaf 1608872888844947712)
 (.leaf 1608979837076114432)))
 (.node 2 (.node 1 (.leaf 1609754075683181312)
 (.leaf 1610204705440539136))
 (.node 1 (.leaf 1610731424948961792)
 (.leaf 1610734971058750720))))
 (.node 4 (.node 2 (.node 1 (.leaf 1611530256052050944)
 (.leaf 1612111732672978432))
 (.node 1 (.leaf 1613487926373444608)
 (.leaf 1614092922754500096)))
 (.node 2 (.node 1 (.leaf 1614277448532238336)
 (.leaf 1616241284453877504))
 (.node 1 (.leaf 1617017332983402240)
 (.leaf 1617882165653749248)))))))
 (.node 32 (.node 16 (.node 8 (.node 4 (.node 2 (.node 1 (.leaf 1618575116167709952)
 (.leaf 1619311010685057792))
 (.node 1 (.leaf 1619722890931144448)
 (.leaf 1619837391456796672)))
 (.node 2 (.node 1 (.leaf 1619963462166907392)
 (.leaf 1620518036070374400))
 (.node 1 (.leaf 1621536704447532544)
 (.leaf 1621596492212464640))))
 (.node 4 (.node 2 (.node 1 (.leaf 1621648644939965952)
 (.leaf 1623329506061577984))
 (.node 1 (.leaf 1626637081677981696)
 (.leaf 1627346607175761664)))
 (.node 2 (.node 1 (.leaf 1627401235067153920)
 (.leaf 1627824560966221824))
 (.node 1 (.leaf 1628864697727403776)
 (.leaf 1629067332238394624)))))
 (.node 8 (.node 4 (.node 2 (.node 1 (.leaf 1629677758390843904)
 (.leaf 1629701507445453056))
 (.node 1 (.leaf 1630425599684814848)
 (.leaf 1630653959355718144)))
 (.node 2 (.node 1 (.leaf 1631103557615343360)
 (.leaf 1633095512948606976))
 (.node 1 (.leaf 1634065159616879360)
 (.leaf 1634471669339187456))))
 (.node 4 (.node 2 (.node 1 (.leaf 1634939396363589632)
 (.leaf 1635227777787814912))
 (.node 1 (.leaf 1635280591979456256)
 (.leaf 1635876629109852672)))
 (.node 2 (.node 1 (.leaf 1637100909318898944)
 (.leaf 1637337393056381952))
 (.node 1 (.leaf 1639793830043951872)
 (.leaf 1639957982708081152))))))
 (.node 16 (.node 8 (.node 4 (.node 2 (.node 1 (.leaf 1640309983253691648)
 (.leaf 1641238693658871808))
 (.node 1 (.leaf 1642280123297048064)
 (.leaf 1642819872262081536)))
 (.node 2 (.node 1 (.leaf 1642911393757651456)
 (.leaf 1642927801050771456))
 (.node 1 (.leaf 1643241532215131904)
 (.leaf 1643280394338023424))))
 (.node 4 (.node 2 (.node 1 (.leaf 1644029663220722944)
 (.leaf 1644214082280708608))
 (.node 1 (.leaf 1644471103653920000)
 (.leaf 1644520496329787904)))
 (.node 2 (.node 1 (.leaf 1644688511159516416)
 (.leaf 1645568966628184576))
 (.node 1 (.leaf 1646010494327992320)
 (.leaf 1646457250536758784)))))
 (.node 8 (.node 4 (.node 2 (.node 1 (.leaf 1646907089858413824)
 (.leaf 1646957092255018496))
 (.node 1 (.leaf 1647098621644778496)
 (.leaf 1648110564529637632)))
 (.node 2 (.node 1 (.leaf 1648385198335337984)
 (.leaf 1648567612538196992))
 (.node 1 (.leaf 1649158296436907264)
 (.leaf 1649919274137797376))))
 (.node 4 (.node 2 (.node 1 (.leaf 1650815698930074112)
 (.leaf 1651264308388557824))
 (.node 1 (.leaf 1652114539972634880)
 (.leaf 1653258584849051904)))
 (.node 2 (.node 1 (.leaf 1653781014361764096)
 (.leaf 1653800725543589376))
 (.node 1 (.leaf 1653842350205547008)
 (.leaf 1654535397573379328)))))))))
 (.node 128 (.node 64 (.node 32 (.node 16 (.node 8 (.node 4 (.node 2 (.node 1 (.leaf 1656073221166613760)
 (.leaf 1656150841303172096))
 (.node 1 (.leaf 1656821000677798656)
 (.leaf 1657764630144415488)))
 (.node 2 (.node 1 (.leaf 1658017710977642496)
 (.leaf 1658549985244953856))
 (.node 1 (.leaf 1658693279385754880)
 (.leaf 1658711906601827072))))
 (.node 4 (.node 2 (.node 1 (.leaf 1660085219560021760)
 (.leaf 1660285709120982016))
 (.node 1 (.leaf 1661195711680210176)
 (.leaf 1661482663417399040)))
 (.node 2 (.node 1 (.leaf 1661596971166458880)
 (.leaf 1662263953458529792))
 (.node 1 (.leaf 1662723107087196416)
 (.leaf 1663087086245946368)))))
 (.node 8 (.node 4 (.node 2 (.node 1 (.leaf 1663224864363703552)
 (.leaf 1663532031410612992))
 (.node 1 (.leaf 1663679382119736064)
 (.leaf 1664101082396142336)))
 (.node 2 (.node 1 (.leaf 1665512173710919424)
 (.leaf 1666292067674868224))
 (.node 1 (.leaf 1667471328278413056)
 (.leaf 1667482461345200640))))
 (.node 4 (.node 2 (.node 1 (.leaf 1669562776210680832)
 (.leaf 1669848050806232832))
 (.node 1 (.leaf 1670195168918992896)
 (.leaf 1670646032302084352)))
 (.node 2 (.node 1 (.leaf 1670883816716267520)
 (.leaf 1670982653772154112))
 (.node 1 (.leaf 1671337243562852608)
 (.leaf 1672370066771875072))))))
 (.node 16 (.node 8 (.node 4 (.node 2 (.node 1 (.leaf 1674333752309083904)
 (.leaf 1674848715026281984))
 (.node 1 (.leaf 1675160157025422592)
 (.leaf 1675800841101539072)))
 (.node 2 (.node 1 (.leaf 1675820189435246592)
 (.leaf 1677470041726902016))
 (.node 1 (.leaf 1677706219613562112)
 (.leaf 1678139320986472192))))
 (.node 4 (.node 2 (.node 1 (.leaf 1678538133770141952)
 (.leaf 1678968040366752512))
 (.node 1 (.leaf 1679863509445109504)
 (.leaf 1680107014909324032)))
 (.node 2 (.node 1 (.leaf 1680414008908577024)
 (.leaf 1680911486560689664))
 (.node 1 (.leaf 1681878196898740480)
 (.leaf 1682365520753892608)))))
 (.node 8 (.node 4 (.node 2 (.node 1 (.leaf 1682577161946724096)
 (.leaf 1683077774899467264))
 (.node 1 (.leaf 1683697382293517056)
 (.leaf 1683817254729307904)))
 (.node 2 (.node 1 (.leaf 1683927167714928896)
 (.leaf 1684209310665632768))
 (.node 1 (.leaf 1686283372186178048)
 (.leaf 1687733794162744320))))
 (.node 4 (.node 2 (.node 1 (.leaf 1688573383718729728)
 (.leaf 1690004096380689664))
 (.node 1 (.leaf 1690067903558240512)
 (.leaf 1690608168814092288)))
 (.node 2 (.node 1 (.leaf 1691098878206732032)
 (.leaf 1691490331005113088))
 (.node 1 (.leaf 1692274686637504512)
 (.leaf 1693588693890674176)))))))
 (.node 32 (.node 16 (.node 8 (.node 4 (.node 2 (.node 1 (.leaf 1693804916293955328)
 (.leaf 1694354895274451200))
 (.node 1 (.leaf 1695798011606118912)
 (.leaf 1697686041631131136)))
 (.node 2 (.node 1 (.leaf 1698796187272991744)
 (.leaf 1699398181621259776))
 (.node 1 (.leaf 1699509361665874688)
 (.leaf 1699589461124375296))))
 (.node 4 (.node 2 (.node 1 (.leaf 1699731811618067968)
 (.leaf 1700142662681934080))
 (.node 1 (.leaf 1700525655292710656)
 (.leaf 1700923929610164736)))
 (.node 2 (.node 1 (.leaf 1701975497353776384)
 (.leaf 1702060364443681536))
 (.node 1 (.leaf 1702114031448790784)
 (.leaf 1702552500299457536)))))
 (.node 8 (.node 4 (.node 2 (.node 1 (.leaf 1703130302222562304)
 (.leaf 1703472197024705536))
 (.node 1 (.leaf 1703757977812547840)
 (.leaf 1703865432781990144)))
 (.node 2 (.node 1 (.leaf 1704376445215383296)
 (.leaf 1704608108185251840))
 (.node 1 (.leaf 1705466304184585216)
 (.leaf 1706571395979987456))))
 (.node 4 (.node 2 (.node 1 (.leaf 1706957279096571392)
 (.leaf 1707462452345027840))
 (.node 1 (.leaf 1708384443486259968)
 (.leaf 1708816649016179456)))
 (.node 2 (.node 1 (.leaf 1709011614551504384)
 (.leaf 1709044067213076480))
 (.node 1 (.leaf 1709079820961125376)
 (.leaf 1709246469052864000))))))
 (.node 16 (.node 8 (.node 4 (.node 2 (.node 1 (.leaf 1710284416643954432)
 (.leaf 1711196436350713088))
 (.node 1 (.leaf 1712057678648041984)
 (.leaf 1712358995078491904)))
 (.node 2 (.node 1 (.leaf 1713121872718627584)
 (.leaf 1713627466735943936))
 (.node 1 (.leaf 1714528617422451200)
 (.leaf 1715269161235594496))))
 (.node 4 (.node 2 (.node 1 (.leaf 1717172549625828608)
 (.leaf 1718132666004867328))
 (.node 1 (.leaf 1719075420658860544)
 (.leaf 1719121853631137024)))
 (.node 2 (.node 1 (.leaf 1719816076597420544)
 (.leaf 1720102375858994176))
 (.node 1 (.leaf 1721616548635184384)
 (.leaf 1722362273837612288)))))
 (.node 8 (.node 4 (.node 2 (.node 1 (.leaf 1723312151677533952)
 (.leaf 1723687399508309504))
 (.node 1 (.leaf 1724709132819210752)
 (.leaf 1724974721002712832)))
 (.node 2 (.node 1 (.leaf 1725925353086874112)
 (.leaf 1726270458204553984))
 (.node 1 (.leaf 1727312031988320000)
 (.leaf 1727415069722459648))))
 (.node 4 (.node 2 (.node 1 (.leaf 1727468165719645696)
 (.leaf 1728353829471713280))
 (.node 1 (.leaf 1729105041300984832)
 (.leaf 1729241780402704640)))
 (.node 2 (.node 1 (.leaf 1729717636828253184)
 (.leaf 1730072441537647360))
 (.node 1 (.leaf 1730411631777111808)
 (.leaf 1730542223715377152))))))))
 (.node 64 (.node 32 (.node 16 (.node 8 (.node 4 (.node 2 (.node 1 (.leaf 1731120491266752256)
 (.leaf 1731443062709827840))
 (.node 1 (.leaf 1732643838597762816)
 (.leaf 1733210591316368384)))
 (.node 2 (.node 1 (.leaf 1733528755269094144)
 (.leaf 1734049701923440384))
 (.node 1 (.leaf 1734136460266580224)
 (.leaf 1734915317244548096))))
 (.node 4 (.node 2 (.node 1 (.leaf 1736080981379052800)
 (.leaf 1736097341272401920))
 (.node 1 (.leaf 1738198993299521024)
 (.leaf 1738241879782009856)))
 (.node 2 (.node 1 (.leaf 1738344444981422336)
 (.leaf 1739719105538148608))
 (.node 1 (.leaf 1741587873739615488)
 (.leaf 1741861915254837248)))))
 (.node 8 (.node 4 (.node 2 (.node 1 (.leaf 1743220766484892928)
 (.leaf 1743346866774568704))
 (.node 1 (.leaf 1743635244382692608)
 (.leaf 1743701538706757376)))
 (.node 2 (.node 1 (.leaf 1744589715901385984)
 (.leaf 1745694209272281088))
 (.node 1 (.leaf 1745724871082919168)
 (.leaf 1746587140986931200))))
 (.node 4 (.node 2 (.node 1 (.leaf 1746890680046557696)
 (.leaf 1748368110049127424))
 (.node 1 (.leaf 1748695096033916928)
 (.leaf 1748715833205964032)))
 (.node 2 (.node 1 (.leaf 1749017852205247232)
 (.leaf 1749763740791795968))
 (.node 1 (.leaf 1749856964708289536)
 (.leaf 1750124262993123328))))))
 (.node 16 (.node 8 (.node 4 (.node 2 (.node 1 (.leaf 1750687899438727424)
 (.leaf 1751507075205420032))
 (.node 1 (.leaf 1753853084906220288)
 (.leaf 1754802840281965056)))
 (.node 2 (.node 1 (.leaf 1754819606539033856)
 (.leaf 1755448473717466880))
 (.node 1 (.leaf 1755469978861216768)
 (.leaf 1755493948758127104))))
 (.node 4 (.node 2 (.node 1 (.leaf 1755596480725020416)
 (.leaf 1755879985752334080))
 (.node 1 (.leaf 1756272336023866368)
 (.leaf 1757525129736043520)))
 (.node 2 (.node 1 (.leaf 1758189515271618816)
 (.leaf 1758279347641309696))
 (.node 1 (.leaf 1758712675416035840)
 (.leaf 1759776577036356352)))))
 (.node 8 (.node 4 (.node 2 (.node 1 (.leaf 1761322374219223552)
 (.leaf 1761612881456538368))
 (.node 1 (.leaf 1764577292301727744)
 (.leaf 1764716789850460160)))
 (.node 2 (.node 1 (.leaf 1765118241943251456)
 (.leaf 1765738667907715840))
 (.node 1 (.leaf 1766265159059600640)
 (.leaf 1766339848023449856))))
 (.node 4 (.node 2 (.node 1 (.leaf 1766502881671950336)
 (.leaf 1766868807156160512))
 (.node 1 (.leaf 1766873791702484224)
 (.leaf 1767055973368822528)))
 (.node 2 (.node 1 (.leaf 1767493466653762048)
 (.leaf 1768845575561972224))
 (.node 1 (.leaf 1769700057355066112)
 (.leaf 1769726904899649536)))))))
 (.node 32 (.node 16 (.node 8 (.node 4 (.node 2 (.node 1 (.leaf 1772984082891601920)
 (.leaf 1773433887693736192))
 (.node 1 (.leaf 1773516774503506688)
 (.leaf 1777907387999136512)))
 (.node 2 (.node 1 (.leaf 1779907124546558720)
 (.leaf 1780728574835571968))
 (.node 1 (.leaf 1781324165098583552)
 (.leaf 1781529245908242176))))
 (.node 4 (.node 2 (.node 1 (.leaf 1781675025024007424)
 (.leaf 1782849297861148672))
 (.node 1 (.leaf 1783993754005296896)
 (.leaf 1784159182146972416)))
 (.node 2 (.node 1 (.leaf 1784210578823794688)
 (.leaf 1784374483946079232))
 (.node 1 (.leaf 1784386543629363456)
 (.leaf 1784450298709297920)))))
 (.node 8 (.node 4 (.node 2 (.node 1 (.leaf 1784693389772548352)
 (.leaf 1784892805837602560))
 (.node 1 (.leaf 1784910530840820480)
 (.leaf 1785100720522398464)))
 (.node 2 (.node 1 (.leaf 1785493545550323200)
 (.leaf 1785543973078586624))
 (.node 1 (.leaf 1786149710938469376)
 (.leaf 1786558125913440768))))
 (.node 4 (.node 2 (.node 1 (.leaf 1787002206848782336)
 (.leaf 1787743502365667328))
 (.node 1 (.leaf 1788100700586146560)
 (.leaf 1788483778132974592)))
 (.node 2 (.node 1 (.leaf 1788492209195725824)
 (.leaf 1788658068644080384))
 (.node 1 (.leaf 1788784517337224704)
 (.leaf 1788897014514720768))))))
 (.node 16 (.node 8 (.node 4 (.node 2 (.node 1 (.leaf 1788942606576498432)
 (.leaf 1789027328601951232))
 (.node 1 (.leaf 1789668092167661056)
 (.leaf 1789820500229574656)))
 (.node 2 (.node 1 (.leaf 1790114359224750080)
 (.leaf 1791491878897292544))
 (.node 1 (.leaf 1791933586623205632)
 (.leaf 1791963468031632896))))
 (.node 4 (.node 2 (.node 1 (.leaf 1793571821787168256)
 (.leaf 1793919745248090624))
 (.node 1 (.leaf 1794759560556674048)
 (.leaf 1794780107531693056)))
 (.node 2 (.node 1 (.leaf 1795124966825135104)
 (.leaf 1795395392156573184))
 (.node 1 (.leaf 1795841796074656256)
 (.leaf 1796025555632545536)))))
 (.node 8 (.node 4 (.node 2 (.node 1 (.leaf 1796606694435544064)
 (.leaf 1796755283073988352))
 (.node 1 (.leaf 1797533573203494144)
 (.leaf 1797786552493723904)))
 (.node 2 (.node 1 (.leaf 1797944459405134336)
 (.leaf 1798611582065356800))
 (.node 1 (.leaf 1799767141782711808)
 (.leaf 1799822716746307072))))
 (.node 4 (.node 2 (.node 1 (.leaf 1800061081080965120)
 (.leaf 1800170464096278272))
 (.node 1 (.leaf 1802044075755143424)
 (.leaf 1802123663214849280)))
 (.node 2 (.node 1 (.leaf 1803983031051441152)
 (.leaf 1805256046518098176))
 (.node 1 (.leaf 1805460854967298048)
 (.leaf 1805849831893005312)))))))))))
 (.node 512 (.node 256 (.node 128 (.node 64 (.node 32 (.node 16 (.node 8 (.node 4 (.node 2 (.node 1 (.leaf 1805991004443254784)
 (.leaf 1806247953688620032))
 (.node 1 (.leaf 1806613234707124736)
 (.leaf 1807259814643198464)))
 (.node 2 (.node 1 (.leaf 1807655570869257728)
 (.leaf 1807906628634890496))
 (.node 1 (.leaf 1808414678411361536)
 (.leaf 1808445604700765184))))
 (.node 4 (.node 2 (.node 1 (.leaf 1808750662661021440)
 (.leaf 1809452543324638208))
 (.node 1 (.leaf 1811249079146976768)
 (.leaf 1811432908566705152)))
 (.node 2 (.node 1 (.leaf 1811932812742006784)
 (.leaf 1812579474075083520))
 (.node 1 (.leaf 1812769750072966400)
 (.leaf 1813198092568826112)))))
 (.node 8 (.node 4 (.node 2 (.node 1 (.leaf 1813259257982395392)
 (.leaf 1813325399112264448))
 (.node 1 (.leaf 1813486747205567232)
 (.leaf 1813486747205567744)))
 (.node 2 (.node 1 (.leaf 1813775541292400640)
 (.leaf 1813843692731258624))
 (.node 1 (.leaf 1814087290813151488)
 (.leaf 1814703604263798528))))
 (.node 4 (.node 2 (.node 1 (.leaf 1814949902140790272)
 (.leaf 1815558959711769344))
 (.node 1 (.leaf 1815649001489805056)
 (.leaf 1815679281826724864)))
 (.node 2 (.node 1 (.leaf 1815859647389116928)
 (.leaf 1817577131112958976))
 (.node 1 (.leaf 1817878642088499456)
 (.leaf 1818109190115185408))))))
 (.node 16 (.node 8 (.node 4 (.node 2 (.node 1 (.leaf 1818317501016847872)
 (.leaf 1818473375710769408))
 (.node 1 (.leaf 1818732718841966592)
 (.leaf 1818836098362157056)))
 (.node 2 (.node 1 (.leaf 1819110852784464128)
 (.leaf 1819821680391242240))
 (.node 1 (.leaf 1819889750935337984)
 (.leaf 1820169120918786560))))
 (.node 4 (.node 2 (.node 1 (.leaf 1820830241608309760)
 (.leaf 1820896588636808192))
 (.node 1 (.leaf 1821637206247576576)
 (.leaf 1822978936620346368)))
 (.node 2 (.node 1 (.leaf 1823766847289720576)
 (.leaf 1823802681040367616))
 (.node 1 (.leaf 1824600412621041152)
 (.leaf 1825584986768866048)))))
 (.node 8 (.node 4 (.node 2 (.node 1 (.leaf 1825629801019804160)
 (.leaf 1826406628688845312))
 (.node 1 (.leaf 1826592029770748672)
 (.leaf 1826975165038726656)))
 (.node 2 (.node 1 (.leaf 1827202767247378944)
 (.leaf 1828537290978110720))
 (.node 1 (.leaf 1828954860037064192)
 (.leaf 1828974560570632704))))
 (.node 4 (.node 2 (.node 1 (.leaf 1829083922831668992)
 (.leaf 1829147609495309056))
 (.node 1 (.leaf 1829880882940610304)
 (.leaf 1831505194242033152)))
 (.node 2 (.node 1 (.leaf 1832218178114132736)
 (.leaf 1833365107910583040))
 (.node 1 (.leaf 1833734087002919680)
 (.leaf 1833897391557946368)))))))
 (.node 32 (.node 16 (.node 8 (.node 4 (.node 2 (.node 1 (.leaf 1835787352532926464)
 (.leaf 1836865304473047808))
 (.node 1 (.leaf 1837275840566104320)
 (.leaf 1837485219807490304)))
 (.node 2 (.node 1 (.leaf 1839483961622363392)
 (.leaf 1839529390281373696))
 (.node 1 (.leaf 1840028758828496896)
 (.leaf 1841647480151403776))))
 (.node 4 (.node 2 (.node 1 (.leaf 1842029455517780736)
 (.leaf 1842124121022441984))
 (.node 1 (.leaf 1842609015441033472)
 (.leaf 1843545347834961408)))
 (.node 2 (.node 1 (.leaf 1844463375670454016)
 (.leaf 1844890784161584384))
 (.node 1 (.leaf 1844937627477206016)
 (.leaf 1845108943815868416)))))
 (.node 8 (.node 4 (.node 2 (.node 1 (.leaf 1845316584672122368)
 (.leaf 1846040922754672640))
 (.node 1 (.leaf 1846146990111308288)
 (.leaf 1846225268933057024)))
 (.node 2 (.node 1 (.leaf 1846327405968680192)
 (.leaf 1846408564812445184))
 (.node 1 (.leaf 1846633425421853696)
 (.leaf 1847033031302378496))))
 (.node 4 (.node 2 (.node 1 (.leaf 1848380552105300224)
 (.leaf 1848985990333834752))
 (.node 1 (.leaf 1849518626977534976)
 (.leaf 1849652805360671232)))
 (.node 2 (.node 1 (.leaf 1849961208329726464)
 (.leaf 1850002834013408768))
 (.node 1 (.leaf 1850197962474059776)
 (.leaf 1851214341280957696))))))
 (.node 16 (.node 8 (.node 4 (.node 2 (.node 1 (.leaf 1851329569355791360)
 (.leaf 1851617163624927232))
 (.node 1 (.leaf 1851881155157544448)
 (.leaf 1852155415489138688)))
 (.node 2 (.node 1 (.leaf 1852480816839430144)
 (.leaf 1852611486572305152))
 (.node 1 (.leaf 1852630447269333248)
 (.leaf 1852734884793259264))))
 (.node 4 (.node 2 (.node 1 (.leaf 1852810624949183744)
 (.leaf 1853547092084015872))
 (.node 1 (.leaf 1853852663459339008)
 (.leaf 1854248705584228352)))
 (.node 2 (.node 1 (.leaf 1854337667994119936)
 (.leaf 1854742944054206464))
 (.node 1 (.leaf 1855013170531091456)
 (.leaf 1855047895429249792)))))
 (.node 8 (.node 4 (.node 2 (.node 1 (.leaf 1855503797041807616)
 (.leaf 1855507393701083392))
 (.node 1 (.leaf 1855818061429460224)
 (.leaf 1855838901104494848)))
 (.node 2 (.node 1 (.leaf 1855882073760922112)
 (.leaf 1855924985694390528))
 (.node 1 (.leaf 1856364463062682368)
 (.leaf 1856505577195538432))))
 (.node 4 (.node 2 (.node 1 (.leaf 1856712087345111808)
 (.leaf 1857177617041538304))
 (.node 1 (.leaf 1857566582313444608)
 (.leaf 1858718344873815552)))
 (.node 2 (.node 1 (.leaf 1859606046126825984)
 (.leaf 1859747398454774528))
 (.node 1 (.leaf 1860092353933653248)
 (.leaf 1861284641828991488))))))))
 (.node 64 (.node 32 (.node 16 (.node 8 (.node 4 (.node 2 (.node 1 (.leaf 1863971478898643712)
 (.leaf 1865841883966295296))
 (.node 1 (.leaf 1866229701753528064)
 (.leaf 1866632893842136832)))
 (.node 2 (.node 1 (.leaf 1867347996756862208)
 (.leaf 1868008744010276608))
 (.node 1 (.leaf 1869271444242205440)
 (.leaf 1870686258170166528))))
 (.node 4 (.node 2 (.node 1 (.leaf 1870917538222901248)
 (.leaf 1871162978527574528))
 (.node 1 (.leaf 1873180083754081792)
 (.leaf 1873406696410982144)))
 (.node 2 (.node 1 (.leaf 1876545693193870592)
 (.leaf 1876616006670758912))
 (.node 1 (.leaf 1876647903271289856)
 (.leaf 1877223981145738240)))))
 (.node 8 (.node 4 (.node 2 (.node 1 (.leaf 1877226736044000256)
 (.leaf 1877278380037414144))
 (.node 1 (.leaf 1877833724217099264)
 (.leaf 1878150364669515264)))
 (.node 2 (.node 1 (.leaf 1878332911716891648)
 (.leaf 1878927697951756800))
 (.node 1 (.leaf 1880166920392873216)
 (.leaf 1880946182391999488))))
 (.node 4 (.node 2 (.node 1 (.leaf 1881387661976700416)
 (.leaf 1882082031793842944))
 (.node 1 (.leaf 1882656504419840512)
 (.leaf 1883478345076474880)))
 (.node 2 (.node 1 (.leaf 1884045207138706176)
 (.leaf 1884249311974499072))
 (.node 1 (.leaf 1885444681331486976)
 (.leaf 1885788962166333696))))))
 (.node 16 (.node 8 (.node 4 (.node 2 (.node 1 (.leaf 1885942614307544064)
 (.leaf 1885957664652773632))
 (.node 1 (.leaf 1886456036121221888)
 (.leaf 1886639713623168768)))
 (.node 2 (.node 1 (.leaf 1887482188401476352)
 (.leaf 1888964097158277632))
 (.node 1 (.leaf 1889638119094638592)
 (.leaf 1891997048778524928))))
 (.node 4 (.node 2 (.node 1 (.leaf 1892059967376231168)
 (.leaf 1893289729071800320))
 (.node 1 (.leaf 1894245413229429248)
 (.leaf 1894353896841005824)))
 (.node 2 (.node 1 (.leaf 1894699613478722048)
 (.leaf 1896856140031867136))
 (.node 1 (.leaf 1896940051982144256)
 (.leaf 1897924224842989568)))))
 (.node 8 (.node 4 (.node 2 (.node 1 (.leaf 1898797751798947072)
 (.leaf 1899004085296363520))
 (.node 1 (.leaf 1899067528780607744)
 (.leaf 1899913044963605248)))
 (.node 2 (.node 1 (.leaf 1899937245284102656)
 (.leaf 1900000042861603328))
 (.node 1 (.leaf 1900307683914251264)
 (.leaf 1900510161207964928))))
 (.node 4 (.node 2 (.node 1 (.leaf 1900919579172917760)
 (.leaf 1901116766428357376))
 (.node 1 (.leaf 1901545940755001856)
 (.leaf 1902147625692702720)))
 (.node 2 (.node 1 (.leaf 1902481947109622272)
 (.leaf 1903381172427192832))
 (.node 1 (.leaf 1903656629144828160)
 (.leaf 1904095123753511424)))))))
 (.node 32 (.node 16 (.node 8 (.node 4 (.node 2 (.node 1 (.leaf 1904167612652727552)
 (.leaf 1904533558896866304))
 (.node 1 (.leaf 1905851433251155968)
 (.leaf 1906334036152242432)))
 (.node 2 (.node 1 (.leaf 1906418701755610368)
 (.leaf 1906423891032041472))
 (.node 1 (.leaf 1907344091579399168)
 (.leaf 1907434150271162112))))
 (.node 4 (.node 2 (.node 1 (.leaf 1908000089726626304)
 (.leaf 1908976100455670016))
 (.node 1 (.leaf 1909053594026826240)
 (.leaf 1909777247373518336)))
 (.node 2 (.node 1 (.leaf 1909876656304358400)
 (.leaf 1910130171285211392))
 (.node 1 (.leaf 1911862173336718080)
 (.leaf 1912273473432723456)))))
 (.node 8 (.node 4 (.node 2 (.node 1 (.leaf 1913030586588112640)
 (.leaf 1914382861780755968))
 (.node 1 (.leaf 1914655706584448512)
 (.leaf 1915266335726912768)))
 (.node 2 (.node 1 (.leaf 1915475883699297792)
 (.leaf 1915641442498444544))
 (.node 1 (.leaf 1916653832102124544)
 (.leaf 1918053933603336704))))
 (.node 4 (.node 2 (.node 1 (.leaf 1918227259495849728)
 (.leaf 1919374164654949632))
 (.node 1 (.leaf 1919635007736760320)
 (.leaf 1920467873775134976)))
 (.node 2 (.node 1 (.leaf 1920581760373170176)
 (.leaf 1921881871307656448))
 (.node 1 (.leaf 1921992610385223424)
 (.leaf 1924124122834278144))))))
 (.node 16 (.node 8 (.node 4 (.node 2 (.node 1 (.leaf 1925727269399801600)
 (.leaf 1927526596012111104))
 (.node 1 (.leaf 1928882422544093952)
 (.leaf 1929693383829682432)))
 (.node 2 (.node 1 (.leaf 1930521136323988480)
 (.leaf 1930661546306181120))
 (.node 1 (.leaf 1930776257051406336)
 (.leaf 1932290836722920960))))
 (.node 4 (.node 2 (.node 1 (.leaf 1932368953119777536)
 (.leaf 1932628169249276160))
 (.node 1 (.leaf 1932815092875408128)
 (.leaf 1933567107935115264)))
 (.node 2 (.node 1 (.leaf 1935460207297617664)
 (.leaf 1935527209141660160))
 (.node 1 (.leaf 1936090866656655360)
 (.leaf 1936303604891884544)))))
 (.node 8 (.node 4 (.node 2 (.node 1 (.leaf 1936482577620550656)
 (.leaf 1936736616393263360))
 (.node 1 (.leaf 1937247845677368064)
 (.leaf 1937383384577882624)))
 (.node 2 (.node 1 (.leaf 1938411001617575424)
 (.leaf 1938465489325621504))
 (.node 1 (.leaf 1938715596452294912)
 (.leaf 1938955587120086784))))
 (.node 4 (.node 2 (.node 1 (.leaf 1939349679498266368)
 (.leaf 1939350433251792384))
 (.node 1 (.leaf 1939364065879195648)
 (.leaf 1939452501100077312)))
 (.node 2 (.node 1 (.leaf 1940185966425942528)
 (.leaf 1940970668199506432))
 (.node 1 (.leaf 1941825044410509824)
 (.leaf 1942885705434216960)))))))))
 (.node 128 (.node 64 (.node 32 (.node 16 (.node 8 (.node 4 (.node 2 (.node 1 (.leaf 1943259173262498048)
 (.leaf 1943540387831657728))
 (.node 1 (.leaf 1943580848983970304)
 (.leaf 1943581826704485632)))
 (.node 2 (.node 1 (.leaf 1943741813679591168)
 (.leaf 1946037493124989696))
 (.node 1 (.leaf 1946207203638673920)
 (.leaf 1946973046771711744))))
 (.node 4 (.node 2 (.node 1 (.leaf 1949193852254836480)
 (.leaf 1949840081031702016))
 (.node 1 (.leaf 1950444596112968192)
 (.leaf 1951099693064304640)))
 (.node 2 (.node 1 (.leaf 1951390047571828992)
 (.leaf 1952542743735346944))
 (.node 1 (.leaf 1952624625792791808)
 (.leaf 1953089447501472768)))))
 (.node 8 (.node 4 (.node 2 (.node 1 (.leaf 1953417203162909184)
 (.leaf 1954818573221907456))
 (.node 1 (.leaf 1955088446005950464)
 (.leaf 1955179125745073664)))
 (.node 2 (.node 1 (.leaf 1955501498886951680)
 (.leaf 1956779384802643712))
 (.node 1 (.leaf 1958245720724383232)
 (.leaf 1958434842973646592))))
 (.node 4 (.node 2 (.node 1 (.leaf 1959604865917438720)
 (.leaf 1961047798381641984))
 (.node 1 (.leaf 1961704226157071872)
 (.leaf 1962444162513371648)))
 (.node 2 (.node 1 (.leaf 1962469808759327232)
 (.leaf 1962869260684314624))
 (.node 1 (.leaf 1963146367682479360)
 (.leaf 1965035471225280512))))))
 (.node 16 (.node 8 (.node 4 (.node 2 (.node 1 (.leaf 1966300885481503744)
 (.leaf 1966786940886754560))
 (.node 1 (.leaf 1967224340762526464)
 (.leaf 1967320269740400384)))
 (.node 2 (.node 1 (.leaf 1967776650357643520)
 (.leaf 1968061597042614272))
 (.node 1 (.leaf 1968252954458843392)
 (.leaf 1969301272083366400))))
 (.node 4 (.node 2 (.node 1 (.leaf 1970020166314331136)
 (.leaf 1970026986016362240))
 (.node 1 (.leaf 1970315532026469632)
 (.leaf 1970665815376528896)))
 (.node 2 (.node 1 (.leaf 1970821449805500928)
 (.leaf 1970839313407235840))
 (.node 1 (.leaf 1971482140131457280)
 (.leaf 1972044616275008768)))))
 (.node 8 (.node 4 (.node 2 (.node 1 (.leaf 1972949704902863616)
 (.leaf 1973494408238926336))
 (.node 1 (.leaf 1974920748988047104)
 (.leaf 1975309375627305472)))
 (.node 2 (.node 1 (.leaf 1975433518013280000)
 (.leaf 1976339402767217664))
 (.node 1 (.leaf 1977929789764334592)
 (.leaf 1978151130542054656))))
 (.node 4 (.node 2 (.node 1 (.leaf 1979998653883688960)
 (.leaf 1980634128955891200))
 (.node 1 (.leaf 1980998092638249472)
 (.leaf 1981156301514775296)))
 (.node 2 (.node 1 (.leaf 1981258722940422656)
 (.leaf 1982098872732363008))
 (.node 1 (.leaf 1982394585839514880)
 (.leaf 1983105179679584768)))))))
 (.node 32 (.node 16 (.node 8 (.node 4 (.node 2 (.node 1 (.leaf 1983191713224599552)
 (.leaf 1983829702330621952))
 (.node 1 (.leaf 1984690130718149888)
 (.leaf 1985139577603708160)))
 (.node 2 (.node 1 (.leaf 1985700068461859072)
 (.leaf 1986014378781558528))
 (.node 1 (.leaf 1986163554150750464)
 (.leaf 1986430054806736896))))
 (.node 4 (.node 2 (.node 1 (.leaf 1986553705548374528)
 (.leaf 1986896267424595712))
 (.node 1 (.leaf 1987889101572969728)
 (.leaf 1988493034912233472)))
 (.node 2 (.node 1 (.leaf 1988607542870351872)
 (.leaf 1988900231593830400))
 (.node 1 (.leaf 1989566909824887296)
 (.leaf 1991018217056251136)))))
 (.node 8 (.node 4 (.node 2 (.node 1 (.leaf 1992295804097853696)
 (.leaf 1993016932326757120))
 (.node 1 (.leaf 1993302695539108096)
 (.leaf 1993587641499702272)))
 (.node 2 (.node 1 (.leaf 1994801685207678464)
 (.leaf 1994902670480419328))
 (.node 1 (.leaf 1995337310143332352)
 (.leaf 1996261575682813952))))
 (.node 4 (.node 2 (.node 1 (.leaf 1996649300328048384)
 (.leaf 1997124287655291904))
 (.node 1 (.leaf 1997525728530036480)
 (.leaf 1997627220158395648)))
 (.node 2 (.node 1 (.leaf 1998024864659359232)
 (.leaf 1998235499335614720))
 (.node 1 (.leaf 1998601610525094656)
 (.leaf 1998951440628593152))))))
 (.node 16 (.node 8 (.node 4 (.node 2 (.node 1 (.leaf 1999247678099426048)
 (.leaf 1999385995522929408))
 (.node 1 (.leaf 2000289689229530624)
 (.leaf 2001253709042639360)))
 (.node 2 (.node 1 (.leaf 2001517441320168704)
 (.leaf 2001546382346844672))
 (.node 1 (.leaf 2002956367970937600)
 (.leaf 2003351033077375744))))
 (.node 4 (.node 2 (.node 1 (.leaf 2004063393575170304)
 (.leaf 2004216203766852864))
 (.node 1 (.leaf 2005221510113812736)
 (.leaf 2005891845714843648)))
 (.node 2 (.node 1 (.leaf 2006012913696768512)
 (.leaf 2006741594375301632))
 (.node 1 (.leaf 2008195506415891712)
 (.leaf 2008450173194324224)))))
 (.node 8 (.node 4 (.node 2 (.node 1 (.leaf 2008815815053375232)
 (.leaf 2008939263584012288))
 (.node 1 (.leaf 2009276821634842368)
 (.leaf 2010070887412526592)))
 (.node 2 (.node 1 (.leaf 2010470425568412416)
 (.leaf 2010722260384944384))
 (.node 1 (.leaf 2010764956714760704)
 (.leaf 2011126374636637184))))
 (.node 4 (.node 2 (.node 1 (.leaf 2011490801565135104)
 (.leaf 2012681911644229888))
 (.node 1 (.leaf 2013148475865864448)
 (.leaf 2013336249270026496)))
 (.node 2 (.node 1 (.leaf 2013361249705913600)
 (.leaf 2013544766832761344))
 (.node 1 (.leaf 2014498830309286656)
 (.leaf 2014580962413185280))))))))
 (.node 64 (.node 32 (.node 16 (.node 8 (.node 4 (.node 2 (.node 1 (.leaf 2015475159379389696)
 (.leaf 2015665107737239808))
 (.node 1 (.leaf 2017017127016864256)
 (.leaf 2017330191080496384)))
 (.node 2 (.node 1 (.leaf 2017612633061982208)
 (.leaf 2017884265998014720))
 (.node 1 (.leaf 2018194772752785152)
 (.leaf 2018585667360952320))))
 (.node 4 (.node 2 (.node 1 (.leaf 2018875650606529024)
 (.leaf 2019836663637510912))
 (.node 1 (.leaf 2020057956209927168)
 (.leaf 2020501398926309632)))
 (.node 2 (.node 1 (.leaf 2022687769076386560)
 (.leaf 2023722143691957504))
 (.node 1 (.leaf 2024369999329619968)
 (.leaf 2024576438933659136)))))
 (.node 8 (.node 4 (.node 2 (.node 1 (.leaf 2025005247401711872)
 (.leaf 2025580711010386944))
 (.node 1 (.leaf 2026399028164810240)
 (.leaf 2027319386911841536)))
 (.node 2 (.node 1 (.leaf 2027467205806623744)
 (.leaf 2028193292978306048))
 (.node 1 (.leaf 2028372271493027840)
 (.leaf 2030004402006855936))))
 (.node 4 (.node 2 (.node 1 (.leaf 2031286529791149056)
 (.leaf 2031681311730569984))
 (.node 1 (.leaf 2032691648246262528)
 (.leaf 2033338873639654912)))
 (.node 2 (.node 1 (.leaf 2033445810299699968)
 (.leaf 2033588836183157248))
 (.node 1 (.leaf 2035100323608838144)
 (.leaf 2036134251198589696))))))
 (.node 16 (.node 8 (.node 4 (.node 2 (.node 1 (.leaf 2037125609352549376)
 (.leaf 2037175869908969216))
 (.node 1 (.leaf 2037347385706000384)
 (.leaf 2037421816325726464)))
 (.node 2 (.node 1 (.leaf 2037721487466932992)
 (.leaf 2038550573110459136))
 (.node 1 (.leaf 2039088142495122688)
 (.leaf 2039490051855101440))))
 (.node 4 (.node 2 (.node 1 (.leaf 2039552693722954752)
 (.leaf 2040956126539165184))
 (.node 1 (.leaf 2041832869240749056)
 (.leaf 2042367174104356096)))
 (.node 2 (.node 1 (.leaf 2042373763851698432)
 (.leaf 2043586723725047296))
 (.node 1 (.leaf 2045996033886381312)
 (.leaf 2046102534603616512)))))
 (.node 8 (.node 4 (.node 2 (.node 1 (.leaf 2047315901952153088)
 (.leaf 2047985989742723584))
 (.node 1 (.leaf 2048744794339134976)
 (.leaf 2049823099448010240)))
 (.node 2 (.node 1 (.leaf 2050799969321981440)
 (.leaf 2051796592925100288))
 (.node 1 (.leaf 2052121906859248896)
 (.leaf 2052127819319062272))))
 (.node 4 (.node 2 (.node 1 (.leaf 2053477592144055296)
 (.leaf 2053826501427386624))
 (.node 1 (.leaf 2053947829037012480)
 (.leaf 2054176721486318592)))
 (.node 2 (.node 1 (.leaf 2054847587811319552)
 (.leaf 2055106952204899328))
 (.node 1 (.leaf 2055243449408266240)
 (.leaf 2056625038668546304)))))))
 (.node 32 (.node 16 (.node 8 (.node 4 (.node 2 (.node 1 (.leaf 2059058739241567744)
 (.leaf 2059255136112090112))
 (.node 1 (.leaf 2060669538466499584)
 (.leaf 2060802899200646400)))
 (.node 2 (.node 1 (.leaf 2060936178364472832)
 (.leaf 2061386111669057280))
 (.node 1 (.leaf 2061927929647737600)
 (.leaf 2061951728868832768))))
 (.node 4 (.node 2 (.node 1 (.leaf 2062259344193303296)
 (.leaf 2062447702185629696))
 (.node 1 (.leaf 2062729727309736192)
 (.leaf 2062779356086438400)))
 (.node 2 (.node 1 (.leaf 2062817942079667200)
 (.leaf 2063560137759325696))
 (.node 1 (.leaf 2064038206212849408)
 (.leaf 2064694267439454720)))))
 (.node 8 (.node 4 (.node 2 (.node 1 (.leaf 2065997413541309696)
 (.leaf 2066095258485666048))
 (.node 1 (.leaf 2067391743747654656)
 (.leaf 2068195701624399872)))
 (.node 2 (.node 1 (.leaf 2069252552745176320)
 (.leaf 2069705440747896064))
 (.node 1 (.leaf 2070253757907369728)
 (.leaf 2070453615759631104))))
 (.node 4 (.node 2 (.node 1 (.leaf 2070495411012501504)
 (.leaf 2070990431315687168))
 (.node 1 (.leaf 2071768885120880640)
 (.leaf 2071828327572514304)))
 (.node 2 (.node 1 (.leaf 2071852203137036800)
 (.leaf 2072419533173605120))
 (.node 1 (.leaf 2072563933519276800)
 (.leaf 2072708175562614528))))))
 (.node 16 (.node 8 (.node 4 (.node 2 (.node 1 (.leaf 2072754993605702656)
 (.leaf 2072940584410999040))
 (.node 1 (.leaf 2073319354944771072)
 (.leaf 2073682867859064576)))
 (.node 2 (.node 1 (.leaf 2074986459651241728)
 (.leaf 2075194515363591424))
 (.node 1 (.leaf 2076481397366392320)
 (.leaf 2076664609429598464))))
 (.node 4 (.node 2 (.node 1 (.leaf 2077067912749092352)
 (.leaf 2077093114807423232))
 (.node 1 (.leaf 2077537889379519744)
 (.leaf 2078435490151851008)))
 (.node 2 (.node 1 (.leaf 2078870426935439872)
 (.leaf 2079648063292926976))
 (.node 1 (.leaf 2079854557496423680)
 (.leaf 2080034142037704704)))))
 (.node 8 (.node 4 (.node 2 (.node 1 (.leaf 2080397976612320000)
 (.leaf 2082124106362767872))
 (.node 1 (.leaf 2082449236193569024)
 (.leaf 2082953419468920320)))
 (.node 2 (.node 1 (.leaf 2083642703886130688)
 (.leaf 2083951899995008768))
 (.node 1 (.leaf 2083972444196574208)
 (.leaf 2083973304135583488))))
 (.node 4 (.node 2 (.node 1 (.leaf 2085020651897932032)
 (.leaf 2085097288364224768))
 (.node 1 (.leaf 2085626702001261056)
 (.leaf 2086062501484573952)))
 (.node 2 (.node 1 (.leaf 2086553048422517248)
 (.leaf 2087392662256060928))
 (.node 1 (.leaf 2087443416028196352)
 (.leaf 2087642658610516224))))))))))
 (.node 256 (.node 128 (.node 64 (.node 32 (.node 16 (.node 8 (.node 4 (.node 2 (.node 1 (.leaf 2088257355568443648)
 (.leaf 2088609681396622848))
 (.node 1 (.leaf 2089000972697509632)
 (.leaf 2089875334412196096)))
 (.node 2 (.node 1 (.leaf 2089941250876674304)
 (.leaf 2089941250876674816))
 (.node 1 (.leaf 2090847697033473280)
 (.leaf 2092770007751202304))))
 (.node 4 (.node 2 (.node 1 (.leaf 2093120908670888448)
 (.leaf 2093848912311233536))
 (.node 1 (.leaf 2094105512074318848)
 (.leaf 2094329676012740352)))
 (.node 2 (.node 1 (.leaf 2096687465239582976)
 (.leaf 2097052523418820608))
 (.node 1 (.leaf 2097206392887010304)
 (.leaf 2097258576766480384)))))
 (.node 8 (.node 4 (.node 2 (.node 1 (.leaf 2098088205056222976)
 (.leaf 2098166551929490432))
 (.node 1 (.leaf 2098350969274974976)
 (.leaf 2099017009991524352)))
 (.node 2 (.node 1 (.leaf 2099877033151278080)
 (.leaf 2100284026959331072))
 (.node 1 (.leaf 2100750364667637760)
 (.leaf 2100961209788136192))))
 (.node 4 (.node 2 (.node 1 (.leaf 2101591649321223168)
 (.leaf 2101613983382310400))
 (.node 1 (.leaf 2102404627115330816)
 (.leaf 2103593403366520832)))
 (.node 2 (.node 1 (.leaf 2103627188421166592)
 (.leaf 2103848389887271680))
 (.node 1 (.leaf 2103984229718298112)
 (.leaf 2104387512264629504))))))
 (.node 16 (.node 8 (.node 4 (.node 2 (.node 1 (.leaf 2105290553454058240)
 (.leaf 2105317211520982016))
 (.node 1 (.leaf 2107051918417029376)
 (.leaf 2107370664275944448)))
 (.node 2 (.node 1 (.leaf 2107973929321729792)
 (.leaf 2108906336300189184))
 (.node 1 (.leaf 2110060303651431680)
 (.leaf 2110064336507639808))))
 (.node 4 (.node 2 (.node 1 (.leaf 2110095365142045952)
 (.leaf 2110783545386995200))
 (.node 1 (.leaf 2112914277393098752)
 (.leaf 2113296644566617856)))
 (.node 2 (.node 1 (.leaf 2113966212515911168)
 (.leaf 2115565503109065984))
 (.node 1 (.leaf 2116685365705327872)
 (.leaf 2117845635276833280)))))
 (.node 8 (.node 4 (.node 2 (.node 1 (.leaf 2119075108590034944)
 (.leaf 2121595768149931264))
 (.node 1 (.leaf 2121975724302732032)
 (.leaf 2122499726390672128)))
 (.node 2 (.node 1 (.leaf 2123077991603130624)
 (.leaf 2124029722548358144))
 (.node 1 (.leaf 2124664782534590976)
 (.leaf 2125409699787658496))))
 (.node 4 (.node 2 (.node 1 (.leaf 2125412878600088576)
 (.leaf 2128551937870588416))
 (.node 1 (.leaf 2130362078462903808)
 (.leaf 2130474300240237312)))
 (.node 2 (.node 1 (.leaf 2130759780800046848)
 (.leaf 2130777713034505984))
 (.node 1 (.leaf 2131051729498619648)
 (.leaf 2131417792651929600)))))))
 (.node 32 (.node 16 (.node 8 (.node 4 (.node 2 (.node 1 (.leaf 2131431193205225472)
 (.leaf 2131835049173634560))
 (.node 1 (.leaf 2133313629236201472)
 (.leaf 2134138898780736512)))
 (.node 2 (.node 1 (.leaf 2134289769895070720)
 (.leaf 2134296573697663232))
 (.node 1 (.leaf 2135174458263962368)
 (.leaf 2135330608680834816))))
 (.node 4 (.node 2 (.node 1 (.leaf 2135692195154071808)
 (.leaf 2138219899489229824))
 (.node 1 (.leaf 2139022548832603136)
 (.leaf 2139055469975056128)))
 (.node 2 (.node 1 (.leaf 2139323391623393536)
 (.leaf 2139477664925218816))
 (.node 1 (.leaf 2140912294899315712)
 (.leaf 2141001957510129920)))))
 (.node 8 (.node 4 (.node 2 (.node 1 (.leaf 2142044452410743552)
 (.leaf 2143530256510565888))
 (.node 1 (.leaf 2145115252270798592)
 (.leaf 2145721907012519424)))
 (.node 2 (.node 1 (.leaf 2146014393569996032)
 (.leaf 2146730187991878400))
 (.node 1 (.leaf 2147168657400239872)
 (.leaf 2148510118487495936))))
 (.node 4 (.node 2 (.node 1 (.leaf 2148632902890105344)
 (.leaf 2148848073741226240))
 (.node 1 (.leaf 2149516764270036480)
 (.leaf 2150124021596833280)))
 (.node 2 (.node 1 (.leaf 2150280120270514176)
 (.leaf 2150814333827095040))
 (.node 1 (.leaf 2150891063694215680)
 (.leaf 2151415409357556736))))))
 (.node 16 (.node 8 (.node 4 (.node 2 (.node 1 (.leaf 2151921233718628096)
 (.leaf 2152251248839745792))
 (.node 1 (.leaf 2152623029650120448)
 (.leaf 2152768516107720448)))
 (.node 2 (.node 1 (.leaf 2152950161507749376)
 (.leaf 2154026420288342272))
 (.node 1 (.leaf 2155364327960553728)
 (.leaf 2155595040388016896))))
 (.node 4 (.node 2 (.node 1 (.leaf 2155927217254681600)
 (.leaf 2156397087737786880))
 (.node 1 (.leaf 2156631158145179904)
 (.leaf 2157222291635762944)))
 (.node 2 (.node 1 (.leaf 2157224906385267968)
 (.leaf 2157490953543734528))
 (.node 1 (.leaf 2157926960645359616)
 (.leaf 2158185473761502464)))))
 (.node 8 (.node 4 (.node 2 (.node 1 (.leaf 2158273703730619648)
 (.leaf 2158307846190737920))
 (.node 1 (.leaf 2159518651472773632)
 (.leaf 2160328890225914624)))
 (.node 2 (.node 1 (.leaf 2161003626380535040)
 (.leaf 2161981830117223680))
 (.node 1 (.leaf 2162102603574205440)
 (.leaf 2162124468958479104))))
 (.node 4 (.node 2 (.node 1 (.leaf 2162469522693838080)
 (.leaf 2163587457557049856))
 (.node 1 (.leaf 2164149872055627264)
 (.leaf 2164162580608239872)))
 (.node 2 (.node 1 (.leaf 2164293872296415488)
 (.leaf 2164774950323980288))
 (.node 1 (.leaf 2167100964941465088)
 (.leaf 2167215503181632000))))))))
 (.node 64 (.node 32 (.node 16 (.node 8 (.node 4 (.node 2 (.node 1 (.leaf 2167320435584517376)
 (.leaf 2168531226545996544))
 (.node 1 (.leaf 2169548653285265920)
 (.leaf 2169976863229428224)))
 (.node 2 (.node 1 (.leaf 2170837564465809664)
 (.leaf 2171625179249619968))
 (.node 1 (.leaf 2171674614142834688)
 (.leaf 2172075235270745600))))
 (.node 4 (.node 2 (.node 1 (.leaf 2173541205514666240)
 (.leaf 2174432373662867456))
 (.node 1 (.leaf 2176185719717775872)
 (.leaf 2178410024998371328)))
 (.node 2 (.node 1 (.leaf 2180930258520871424)
 (.leaf 2181189051766753280))
 (.node 1 (.leaf 2182355164186619392)
 (.leaf 2182419544857954816)))))
 (.node 8 (.node 4 (.node 2 (.node 1 (.leaf 2182479717369858304)
 (.leaf 2183317790027314176))
 (.node 1 (.leaf 2183379279883815168)
 (.leaf 2183529036688615424)))
 (.node 2 (.node 1 (.leaf 2183895667704267520)
 (.leaf 2185458390930075904))
 (.node 1 (.leaf 2186701458678255360)
 (.leaf 2190449669092379392))))
 (.node 4 (.node 2 (.node 1 (.leaf 2190593306102978048)
 (.leaf 2190758606613319936))
 (.node 1 (.leaf 2190884349113260544)
 (.leaf 2191176644444795392)))
 (.node 2 (.node 1 (.leaf 2191583390361808384)
 (.leaf 2191774136263031552))
 (.node 1 (.leaf 2192478242514494464)
 (.leaf 2193681066772811264))))))
 (.node 16 (.node 8 (.node 4 (.node 2 (.node 1 (.leaf 2194028236690488576)
 (.leaf 2194940575127273984))
 (.node 1 (.leaf 2195720694888944384)
 (.leaf 2195726114068940288)))
 (.node 2 (.node 1 (.leaf 2195935920359811328)
 (.leaf 2195984108483206400))
 (.node 1 (.leaf 2196131998117527552)
 (.leaf 2196988540378755840))))
 (.node 4 (.node 2 (.node 1 (.leaf 2197036403141125120)
 (.leaf 2198659920269254144))
 (.node 1 (.leaf 2198794236627923456)
 (.leaf 2200395291306659840)))
 (.node 2 (.node 1 (.leaf 2200714531694599680)
 (.leaf 2202122522302402560))
 (.node 1 (.leaf 2202296460250568192)
 (.leaf 2206797177722894336)))))
 (.node 8 (.node 4 (.node 2 (.node 1 (.leaf 2209161589257368576)
 (.leaf 2211501421456971264))
 (.node 1 (.leaf 2212018756822466560)
 (.leaf 2214735709083670784)))
 (.node 2 (.node 1 (.leaf 2215130076954757888)
 (.leaf 2217325486780323840))
 (.node 1 (.leaf 2218112480934789376)
 (.leaf 2218342108614391552))))
 (.node 4 (.node 2 (.node 1 (.leaf 2220144266706657280)
 (.leaf 2220711940965452032))
 (.node 1 (.leaf 2221738518918396416)
 (.leaf 2223341679140507904)))
 (.node 2 (.node 1 (.leaf 2224168789928576000)
 (.leaf 2224553673871089664))
 (.node 1 (.leaf 2225061808030758656)
 (.leaf 2226493068184904704)))))))
 (.node 32 (.node 16 (.node 8 (.node 4 (.node 2 (.node 1 (.leaf 2227436197792646400)
 (.leaf 2227620010040425984))
 (.node 1 (.leaf 2228684421387298048)
 (.leaf 2229260069732030464)))
 (.node 2 (.node 1 (.leaf 2229702257165151488)
 (.leaf 2229803109465568512))
 (.node 1 (.leaf 2230463257724330752)
 (.leaf 2231336555680552192))))
 (.node 4 (.node 2 (.node 1 (.leaf 2231516316675456768)
 (.leaf 2231700431486038528))
 (.node 1 (.leaf 2231836486320121088)
 (.leaf 2232869191815760384)))
 (.node 2 (.node 1 (.leaf 2234254414391501568)
 (.leaf 2236230806071545600))
 (.node 1 (.leaf 2236989524107568896)
 (.leaf 2237030482822071040)))))
 (.node 8 (.node 4 (.node 2 (.node 1 (.leaf 2237053481380496384)
 (.leaf 2237815935069707008))
 (.node 1 (.leaf 2238764318257095168)
 (.leaf 2239139137156682496)))
 (.node 2 (.node 1 (.leaf 2239177007890938880)
 (.leaf 2240261509906636544))
 (.node 1 (.leaf 2240474869314520832)
 (.leaf 2242019001195074816))))
 (.node 4 (.node 2 (.node 1 (.leaf 2242496349250479616)
 (.leaf 2243127164174181120))
 (.node 1 (.leaf 2243420283453202944)
 (.leaf 2243671259903382528)))
 (.node 2 (.node 1 (.leaf 2244747302675627008)
 (.leaf 2245571132281008896))
 (.node 1 (.leaf 2247906873382438400)
 (.leaf 2248117249329210880))))))
 (.node 16 (.node 8 (.node 4 (.node 2 (.node 1 (.leaf 2248134113147677184)
 (.leaf 2248495344227693568))
 (.node 1 (.leaf 2248795437767995136)
 (.leaf 2249382156187203072)))
 (.node 2 (.node 1 (.leaf 2249842317622729728)
 (.leaf 2250230276560467968))
 (.node 1 (.leaf 2251061664761934848)
 (.leaf 2251758790554637568))))
 (.node 4 (.node 2 (.node 1 (.leaf 2251936164195613696)
 (.leaf 2253562560713792768))
 (.node 1 (.leaf 2253773335713478144)
 (.leaf 2254268042493569024)))
 (.node 2 (.node 1 (.leaf 2254453364654235648)
 (.leaf 2254722072128948736))
 (.node 1 (.leaf 2255408833589744896)
 (.leaf 2255814004003260928)))))
 (.node 8 (.node 4 (.node 2 (.node 1 (.leaf 2256781908022954240)
 (.leaf 2257038053044016384))
 (.node 1 (.leaf 2257966522458021632)
 (.leaf 2258573251189072896)))
 (.node 2 (.node 1 (.leaf 2259158888479302400)
 (.leaf 2260717648965622016))
 (.node 1 (.leaf 2260985652811273728)
 (.leaf 2261061647319237632))))
 (.node 4 (.node 2 (.node 1 (.leaf 2261821664590947840)
 (.leaf 2262297225952363520))
 (.node 1 (.leaf 2264043216981171456)
 (.leaf 2266349740750845952)))
 (.node 2 (.node 1 (.leaf 2266550585312163072)
 (.leaf 2266782565912794624))
 (.node 1 (.leaf 2267186177121758720)
 (.leaf 2272638627931101184)))))))))
 (.node 128 (.node 64 (.node 32 (.node 16 (.node 8 (.node 4 (.node 2 (.node 1 (.leaf 2274076410787259904)
 (.leaf 2274668821669222144))
 (.node 1 (.leaf 2276324410663006208)
 (.leaf 2277204886950080768)))
 (.node 2 (.node 1 (.leaf 2279372457977342208)
 (.leaf 2279832720521089280))
 (.node 1 (.leaf 2280147102642066944)
 (.leaf 2280656207971891200))))
 (.node 4 (.node 2 (.node 1 (.leaf 2282583772119621376)
 (.leaf 2283145352141373696))
 (.node 1 (.leaf 2284728564380207104)
 (.leaf 2284895894255249664)))
 (.node 2 (.node 1 (.leaf 2287749939262852096)
 (.leaf 2288004958705322496))
 (.node 1 (.leaf 2288066190873911808)
 (.leaf 2288749747579911680)))))
 (.node 8 (.node 4 (.node 2 (.node 1 (.leaf 2289521171565832448)
 (.leaf 2290368405995591168))
 (.node 1 (.leaf 2292356102812115968)
 (.leaf 2292577120078408192)))
 (.node 2 (.node 1 (.leaf 2294982714550174976)
 (.leaf 2295153303344435200))
 (.node 1 (.leaf 2296193123565588224)
 (.leaf 2297066216276400128))))
 (.node 4 (.node 2 (.node 1 (.leaf 2299766592703972352)
 (.leaf 2301924364146649600))
 (.node 1 (.leaf 2303888081230185984)
 (.leaf 2306575636167878656)))
 (.node 2 (.node 1 (.leaf 2308882935006083584)
 (.leaf 2309577633603859968))
 (.node 1 (.leaf 2309599281670141440)
 (.leaf 2310888319163794944))))))
 (.node 16 (.node 8 (.node 4 (.node 2 (.node 1 (.leaf 2311739640048728576)
 (.leaf 2311814801628838400))
 (.node 1 (.leaf 2315213176248336896)
 (.leaf 2315215128888284672)))
 (.node 2 (.node 1 (.leaf 2316745138915268096)
 (.leaf 2316972657819764224))
 (.node 1 (.leaf 2317299708209393664)
 (.leaf 2318069580949607936))))
 (.node 4 (.node 2 (.node 1 (.leaf 2318708154554435584)
 (.leaf 2320464397680808448))
 (.node 1 (.leaf 2321125218621423104)
 (.leaf 2321497633060665344)))
 (.node 2 (.node 1 (.leaf 2322336021035269120)
 (.leaf 2323783891772947968))
 (.node 1 (.leaf 2323958375109421056)
 (.leaf 2325953228035614208)))))
 (.node 8 (.node 4 (.node 2 (.node 1 (.leaf 2326098957212660736)
 (.leaf 2326753375165908992))
 (.node 1 (.leaf 2327751131415638528)
 (.leaf 2329046758030768128)))
 (.node 2 (.node 1 (.leaf 2329898878347219456)
 (.leaf 2330609852889871360))
 (.node 1 (.leaf 2331082058878512128)
 (.leaf 2331525922780144128))))
 (.node 4 (.node 2 (.node 1 (.leaf 2331630349370647552)
 (.leaf 2333527914349797888))
 (.node 1 (.leaf 2334110707741569024)
 (.leaf 2341071497778198016)))
 (.node 2 (.node 1 (.leaf 2342144172434450944)
 (.leaf 2346931428396820480))
 (.node 1 (.leaf 2347863418754864128)
 (.leaf 2347938912356214272)))))))
 (.node 32 (.node 16 (.node 8 (.node 4 (.node 2 (.node 1 (.leaf 2348447780343542272)
 (.leaf 2348850812497905664))
 (.node 1 (.leaf 2349653914924250624)
 (.leaf 2350711325612187648)))
 (.node 2 (.node 1 (.leaf 2351232378519774720)
 (.leaf 2351609909002781696))
 (.node 1 (.leaf 2351735597482021376)
 (.leaf 2352714562616763904))))
 (.node 4 (.node 2 (.node 1 (.leaf 2355080212800706560)
 (.leaf 2355169400351497216))
 (.node 1 (.leaf 2356886553106761216)
 (.leaf 2357053341218338816)))
 (.node 2 (.node 1 (.leaf 2359885661936510464)
 (.leaf 2360181004872648704))
 (.node 1 (.leaf 2360361139929283584)
 (.leaf 2360526634682572288)))))
 (.node 8 (.node 4 (.node 2 (.node 1 (.leaf 2363190643536384000)
 (.leaf 2363968696561223680))
 (.node 1 (.leaf 2364777759000844288)
 (.leaf 2365258841322932224)))
 (.node 2 (.node 1 (.leaf 2365588983547176960)
 (.leaf 2367243627628510208))
 (.node 1 (.leaf 2368523318367516672)
 (.leaf 2368886681962427392))))
 (.node 4 (.node 2 (.node 1 (.leaf 2370566179359007744)
 (.leaf 2371727840197160448))
 (.node 1 (.leaf 2371978516636820480)
 (.leaf 2372006869260051456)))
 (.node 2 (.node 1 (.leaf 2373305991568595456)
 (.leaf 2373484553412445184))
 (.node 1 (.leaf 2373795791730937344)
 (.leaf 2374058680278110720))))))
 (.node 16 (.node 8 (.node 4 (.node 2 (.node 1 (.leaf 2374164336778504704)
 (.leaf 2374258383780728320))
 (.node 1 (.leaf 2374591411106065408)
 (.leaf 2374904871731596288)))
 (.node 2 (.node 1 (.leaf 2375476573096492032)
 (.leaf 2376079097235347456))
 (.node 1 (.leaf 2376475585131670528)
 (.leaf 2376558052060472320))))
 (.node 4 (.node 2 (.node 1 (.leaf 2377417024086221312)
 (.leaf 2377603298345446400))
 (.node 1 (.leaf 2378268506354284544)
 (.leaf 2379861788220548096)))
 (.node 2 (.node 1 (.leaf 2380762545994806784)
 (.leaf 2383127053991906304))
 (.node 1 (.leaf 2383140605470356992)
 (.leaf 2385190175336173056)))))
 (.node 8 (.node 4 (.node 2 (.node 1 (.leaf 2385337932990261760)
 (.leaf 2386382937712105472))
 (.node 1 (.leaf 2387654051231789568)
 (.leaf 2387963758752374784)))
 (.node 2 (.node 1 (.leaf 2388479020166409728)
 (.leaf 2388793773075035136))
 (.node 1 (.leaf 2389962755541505536)
 (.leaf 2392523034717084672))))
 (.node 4 (.node 2 (.node 1 (.leaf 2392830590058107904)
 (.leaf 2395697262656836608))
 (.node 1 (.leaf 2397359060389961728)
 (.leaf 2399729680292421120)))
 (.node 2 (.node 1 (.leaf 2400146343248562176)
 (.leaf 2401112612873485824))
 (.node 1 (.leaf 2402995298031443968)
 (.leaf 2403096195668240896))))))))
 (.node 64 (.node 32 (.node 16 (.node 8 (.node 4 (.node 2 (.node 1 (.leaf 2403323392732446208)
 (.leaf 2403391174800698368))
 (.node 1 (.leaf 2404418298135527424)
 (.leaf 2405545039464975360)))
 (.node 2 (.node 1 (.leaf 2406765847270537728)
 (.leaf 2408460029165240320))
 (.node 1 (.leaf 2409115755463834112)
 (.leaf 2409169897751846912))))
 (.node 4 (.node 2 (.node 1 (.leaf 2410668053636090368)
 (.leaf 2410769625953936896))
 (.node 1 (.leaf 2411429215453497856)
 (.leaf 2411507183406689792)))
 (.node 2 (.node 1 (.leaf 2411567487443703808)
 (.leaf 2413069728542620672))
 (.node 1 (.leaf 2413414634362001408)
 (.leaf 2414168975224048128)))))
 (.node 8 (.node 4 (.node 2 (.node 1 (.leaf 2415635266423068672)
 (.leaf 2415936258115442688))
 (.node 1 (.leaf 2416355301233132544)
 (.leaf 2416914194785893888)))
 (.node 2 (.node 1 (.leaf 2418212593403047424)
 (.leaf 2418368034686859264))
 (.node 1 (.leaf 2418432596325929984)
 (.leaf 2418725349786207744))))
 (.node 4 (.node 2 (.node 1 (.leaf 2419190499994572800)
 (.leaf 2420036781602941952))
 (.node 1 (.leaf 2421647787276105216)
 (.leaf 2422508887112810496)))
 (.node 2 (.node 1 (.leaf 2422964464551545344)
 (.leaf 2422999746519623168))
 (.node 1 (.leaf 2423438689989331968)
 (.leaf 2423479415232103424))))))
 (.node 16 (.node 8 (.node 4 (.node 2 (.node 1 (.leaf 2425164141441188352)
 (.leaf 2425966778750408704))
 (.node 1 (.leaf 2426573977112201216)
 (.leaf 2426688535348716544)))
 (.node 2 (.node 1 (.leaf 2427858996478887936)
 (.leaf 2430397790150310912))
 (.node 1 (.leaf 2430718533742868480)
 (.leaf 2431051783932881920))))
 (.node 4 (.node 2 (.node 1 (.leaf 2432755919431731200)
 (.leaf 2432904661451615744))
 (.node 1 (.leaf 2433508224208366592)
 (.leaf 2433540918562396672)))
 (.node 2 (.node 1 (.leaf 2433892822176637440)
 (.leaf 2434556413370259456))
 (.node 1 (.leaf 2437142838419987456)
 (.leaf 2438390990375624192)))))
 (.node 8 (.node 4 (.node 2 (.node 1 (.leaf 2439070469761589760)
 (.leaf 2439686795282100224))
 (.node 1 (.leaf 2440224571837644288)
 (.leaf 2442069597680592896)))
 (.node 2 (.node 1 (.leaf 2443422856620804096)
 (.leaf 2443483920247435776))
 (.node 1 (.leaf 2443767929663540224)
 (.leaf 2444453297564399104))))
 (.node 4 (.node 2 (.node 1 (.leaf 2445750444731894784)
 (.leaf 2445812021588641792))
 (.node 1 (.leaf 2446767939806938112)
 (.leaf 2446777747127376896)))
 (.node 2 (.node 1 (.leaf 2448629393441999872)
 (.leaf 2448802733727438848))
 (.node 1 (.leaf 2448977379178229760)
 (.leaf 2449354525946395648)))))))
 (.node 32 (.node 16 (.node 8 (.node 4 (.node 2 (.node 1 (.leaf 2450437775529378304)
 (.leaf 2451587913194440704))
 (.node 1 (.leaf 2451649182326843904)
 (.leaf 2454775103367318528)))
 (.node 2 (.node 1 (.leaf 2455643277374784512)
 (.leaf 2455752943743451136))
 (.node 1 (.leaf 2455880972760343552)
 (.leaf 2456364321015301120))))
 (.node 4 (.node 2 (.node 1 (.leaf 2457553965996387840)
 (.leaf 2457562385758899200))
 (.node 1 (.leaf 2457581924996902912)
 (.leaf 2457703660115522560)))
 (.node 2 (.node 1 (.leaf 2458189972031141376)
 (.leaf 2461083816293479424))
 (.node 1 (.leaf 2461233164615411200)
 (.leaf 2461944974018888192)))))
 (.node 8 (.node 4 (.node 2 (.node 1 (.leaf 2462224318994860032)
 (.leaf 2463375208885805568))
 (.node 1 (.leaf 2464256232583565824)
 (.leaf 2464645137840637952)))
 (.node 2 (.node 1 (.leaf 2465403699857861632)
 (.leaf 2465404821163725824))
 (.node 1 (.leaf 2468663425168235520)
 (.leaf 2470423326021541376))))
 (.node 4 (.node 2 (.node 1 (.leaf 2470759041487108608)
 (.leaf 2471306334916085248))
 (.node 1 (.leaf 2472402929537678336)
 (.leaf 2472528873749088768)))
 (.node 2 (.node 1 (.leaf 2472703800058301440)
 (.leaf 2473940024396087808))
 (.node 1 (.leaf 2474051989804288000)
 (.leaf 2474288126238717952))))))
 (.node 16 (.node 8 (.node 4 (.node 2 (.node 1 (.leaf 2474303106596840960)
 (.leaf 2476210196616794624))
 (.node 1 (.leaf 2476351223858894848)
 (.leaf 2476396239325706752)))
 (.node 2 (.node 1 (.leaf 2476590659675171328)
 (.leaf 2476915232232311808))
 (.node 1 (.leaf 2478464881914949120)
 (.leaf 2478509046445836800))))
 (.node 4 (.node 2 (.node 1 (.leaf 2478717942541668864)
 (.leaf 2479905947719084544))
 (.node 1 (.leaf 2481243631458931200)
 (.leaf 2481975182171755008)))
 (.node 2 (.node 1 (.leaf 2484915108633701888)
 (.leaf 2485905409046352896))
 (.node 1 (.leaf 2485988412366882304)
 (.leaf 2487791016621291520)))))
 (.node 8 (.node 4 (.node 2 (.node 1 (.leaf 2488157156187109888)
 (.leaf 2488836370766067200))
 (.node 1 (.leaf 2488906041113618944)
 (.leaf 2489992088064543232)))
 (.node 2 (.node 1 (.leaf 2490901585321281536)
 (.leaf 2491300975060333568))
 (.node 1 (.leaf 2491582661625936384)
 (.leaf 2494291467257922048))))
 (.node 4 (.node 2 (.node 1 (.leaf 2495401896300874752)
 (.leaf 2495907068317847552))
 (.node 1 (.leaf 2496235188204546560)
 (.leaf 2498386793744924672)))
 (.node 2 (.node 1 (.leaf 2499120393226774016)
 (.leaf 2499167564389893632))
 (.node 1 (.leaf 2499683593377798144)
 (.leaf 2499830787761161728))))))))))))
 (.node 256 (.node 128 (.node 64 (.node 32 (.node 16 (.node 8 (.node 4 (.node 2 (.node 1 (.leaf 2501744055385580032)
 (.leaf 2502345201942929408))
 (.node 1 (.leaf 2502746293937995264)
 (.leaf 2503167404834946560)))
 (.node 2 (.node 1 (.leaf 2504695819890397696)
 (.leaf 2504758164736336896))
 (.node 1 (.leaf 2506730249708178944)
 (.leaf 2508182258388944384))))
 (.node 4 (.node 2 (.node 1 (.leaf 2508508100671298560)
 (.leaf 2509128238479475712))
 (.node 1 (.leaf 2511068172153648640)
 (.leaf 2511334483333236736)))
 (.node 2 (.node 1 (.leaf 2512475553879362560)
 (.leaf 2513147707724124672))
 (.node 1 (.leaf 2513715123915708928)
 (.leaf 2513974837558901760)))))
 (.node 8 (.node 4 (.node 2 (.node 1 (.leaf 2515431466996205568)
 (.leaf 2515431985420869120))
 (.node 1 (.leaf 2515753943071389184)
 (.leaf 2516331690135351808)))
 (.node 2 (.node 1 (.leaf 2519893622855065088)
 (.leaf 2523056221016727552))
 (.node 1 (.leaf 2525509855725255680)
 (.leaf 2526391665491932672))))
 (.node 4 (.node 2 (.node 1 (.leaf 2526434903370638336)
 (.leaf 2526537299979333120))
 (.node 1 (.leaf 2526913653094437888)
 (.leaf 2527740168417086976)))
 (.node 2 (.node 1 (.leaf 2530195192590666240)
 (.leaf 2531365399582713856))
 (.node 1 (.leaf 2531893463544729600)
 (.leaf 2532409731302246400))))))
 (.node 16 (.node 8 (.node 4 (.node 2 (.node 1 (.leaf 2533458320381854720)
 (.leaf 2535000543418093568))
 (.node 1 (.leaf 2537275277581433856)
 (.leaf 2538144702955702272)))
 (.node 2 (.node 1 (.leaf 2538868860578053120)
 (.leaf 2539303770645558784))
 (.node 1 (.leaf 2540211263305014784)
 (.leaf 2542062139369404416))))
 (.node 4 (.node 2 (.node 1 (.leaf 2542099523085444096)
 (.leaf 2543045616820846080))
 (.node 1 (.leaf 2543815578200563712)
 (.leaf 2544230434383090176)))
 (.node 2 (.node 1 (.leaf 2544497237941430784)
 (.leaf 2545184496691094016))
 (.node 1 (.leaf 2545736737769442816)
 (.leaf 2545773950433543168)))))
 (.node 8 (.node 4 (.node 2 (.node 1 (.leaf 2545895016248353792)
 (.leaf 2546860446477206016))
 (.node 1 (.leaf 2548246711300605952)
 (.leaf 2548898319301987328)))
 (.node 2 (.node 1 (.leaf 2549208653025433600)
 (.leaf 2550354722719044608))
 (.node 1 (.leaf 2551088054726708736)
 (.leaf 2552022713586812416))))
 (.node 4 (.node 2 (.node 1 (.leaf 2552924196686582272)
 (.leaf 2553062811444689408))
 (.node 1 (.leaf 2554256903823232512)
 (.leaf 2554537944773790720)))
 (.node 2 (.node 1 (.leaf 2554707041416463360)
 (.leaf 2554787058826727936))
 (.node 1 (.leaf 2555117960711126528)
 (.leaf 2557302954344323072)))))))
 (.node 32 (.node 16 (.node 8 (.node 4 (.node 2 (.node 1 (.leaf 2557554028838720512)
 (.leaf 2560402465836451328))
 (.node 1 (.leaf 2561104998311610880)
 (.leaf 2563122316913336320)))
 (.node 2 (.node 1 (.leaf 2566568429781655040)
 (.leaf 2566635504633800192))
 (.node 1 (.leaf 2567089484110198272)
 (.leaf 2567275929077744640))))
 (.node 4 (.node 2 (.node 1 (.leaf 2572369001322474496)
 (.leaf 2573307684363140096))
 (.node 1 (.leaf 2573636265413454848)
 (.leaf 2574661288191218176)))
 (.node 2 (.node 1 (.leaf 2574825476556407808)
 (.leaf 2574995198112261632))
 (.node 1 (.leaf 2576379479364484608)
 (.leaf 2577797283478236672)))))
 (.node 8 (.node 4 (.node 2 (.node 1 (.leaf 2579774809785034752)
 (.leaf 2581724680671315968))
 (.node 1 (.leaf 2582319289866264064)
 (.leaf 2582549715263866880)))
 (.node 2 (.node 1 (.leaf 2582709756908122624)
 (.leaf 2583536745609880576))
 (.node 1 (.leaf 2583841122245090816)
 (.leaf 2584354214353100288))))
 (.node 4 (.node 2 (.node 1 (.leaf 2586341992956326912)
 (.leaf 2589953310266597376))
 (.node 1 (.leaf 2591089374583122944)
 (.leaf 2591607136238517248)))
 (.node 2 (.node 1 (.leaf 2592429951328077312)
 (.leaf 2595285538704952320))
 (.node 1 (.leaf 2596050580921123328)
 (.leaf 2596301750834432000))))))
 (.node 16 (.node 8 (.node 4 (.node 2 (.node 1 (.leaf 2596659048303337472)
 (.leaf 2596995242361746432))
 (.node 1 (.leaf 2599929647103608832)
 (.leaf 2600382288002061824)))
 (.node 2 (.node 1 (.leaf 2600918809823194112)
 (.leaf 2601322351333776384))
 (.node 1 (.leaf 2601720683573005312)
 (.leaf 2602112895982204928))))
 (.node 4 (.node 2 (.node 1 (.leaf 2602146136308285440)
 (.leaf 2602762341532840960))
 (.node 1 (.leaf 2603308468758327296)
 (.leaf 2604215366533108736)))
 (.node 2 (.node 1 (.leaf 2604493644074519040)
 (.leaf 2605501778419318272))
 (.node 1 (.leaf 2607581019249584128)
 (.leaf 2607672076485814272)))))
 (.node 8 (.node 4 (.node 2 (.node 1 (.leaf 2608729231767304704)
 (.leaf 2609137482129015296))
 (.node 1 (.leaf 2610030883369064960)
 (.leaf 2611127205392216576)))
 (.node 2 (.node 1 (.leaf 2611476729297078784)
 (.leaf 2611927110606368768))
 (.node 1 (.leaf 2612472978590564352)
 (.leaf 2613222579597125632))))
 (.node 4 (.node 2 (.node 1 (.leaf 2613602649913923584)
 (.leaf 2613918364039570944))
 (.node 1 (.leaf 2615375301561133056)
 (.leaf 2616496857648763392)))
 (.node 2 (.node 1 (.leaf 2619268177990280704)
 (.leaf 2620094541353664512))
 (.node 1 (.leaf 2620571288574993408)
 (.leaf 2622850450451323392))))))))
 (.node 64 (.node 32 (.node 16 (.node 8 (.node 4 (.node 2 (.node 1 (.leaf 2623982352703285760)
 (.leaf 2625695412806608896))
 (.node 1 (.leaf 2627445113693933056)
 (.leaf 2629220939007896064)))
 (.node 2 (.node 1 (.leaf 2631871839499937792)
 (.leaf 2632415899959767040))
 (.node 1 (.leaf 2634442164563931648)
 (.leaf 2634915529692524032))))
 (.node 4 (.node 2 (.node 1 (.leaf 2636427621387078656)
 (.leaf 2638733178565796864))
 (.node 1 (.leaf 2639239801376758272)
 (.leaf 2641500020098100224)))
 (.node 2 (.node 1 (.leaf 2646981779050583040)
 (.leaf 2647408706066765824))
 (.node 1 (.leaf 2649456852852198912)
 (.leaf 2649908845203598336)))))
 (.node 8 (.node 4 (.node 2 (.node 1 (.leaf 2651953345717141504)
 (.leaf 2652658736326310912))
 (.node 1 (.leaf 2653075444610525184)
 (.leaf 2653160374013223424)))
 (.node 2 (.node 1 (.leaf 2653278316142264832)
 (.leaf 2654425765866652672))
 (.node 1 (.leaf 2654695129858680832)
 (.leaf 2656070376743113728))))
 (.node 4 (.node 2 (.node 1 (.leaf 2656979541542546432)
 (.leaf 2658188426623816192))
 (.node 1 (.leaf 2659071288017614848)
 (.leaf 2659605500859729408)))
 (.node 2 (.node 1 (.leaf 2660158487123748352)
 (.leaf 2661110284332750336))
 (.node 1 (.leaf 2668087010861300224)
 (.leaf 2668382705977763840))))))
 (.node 16 (.node 8 (.node 4 (.node 2 (.node 1 (.leaf 2669018888133438976)
 (.leaf 2669274708547025408))
 (.node 1 (.leaf 2669286203304718336)
 (.leaf 2670416334049373696)))
 (.node 2 (.node 1 (.leaf 2670718352631382016)
 (.leaf 2671783658385434112))
 (.node 1 (.leaf 2677447342899024384)
 (.leaf 2677712626176169472))))
 (.node 4 (.node 2 (.node 1 (.leaf 2677719732675583488)
 (.leaf 2678085838324809216))
 (.node 1 (.leaf 2679642036297288192)
 (.leaf 2679643960942986752)))
 (.node 2 (.node 1 (.leaf 2679782361919474176)
 (.leaf 2682392708728275968))
 (.node 1 (.leaf 2684298994779095040)
 (.leaf 2684891750920990208)))))
 (.node 8 (.node 4 (.node 2 (.node 1 (.leaf 2685502973702690816)
 (.leaf 2685617642630959104))
 (.node 1 (.leaf 2686431435058886144)
 (.leaf 2686434785105205760)))
 (.node 2 (.node 1 (.leaf 2686573422076887040)
 (.leaf 2688960610921746432))
 (.node 1 (.leaf 2689026229116553728)
 (.leaf 2689361635502417408))))
 (.node 4 (.node 2 (.node 1 (.leaf 2690350962295062528)
 (.leaf 2691910552852465152))
 (.node 1 (.leaf 2692206486129504768)
 (.leaf 2692277773808177152)))
 (.node 2 (.node 1 (.leaf 2692757117129555968)
 (.leaf 2693540310366317056))
 (.node 1 (.leaf 2694954023715831808)
 (.leaf 2696291492335138304)))))))
 (.node 32 (.node 16 (.node 8 (.node 4 (.node 2 (.node 1 (.leaf 2697879652084909056)
 (.leaf 2697962446939790848))
 (.node 1 (.leaf 2698427598143575552)
 (.leaf 2698455500460928000)))
 (.node 2 (.node 1 (.leaf 2698791208924762112)
 (.leaf 2700934356026854400))
 (.node 1 (.leaf 2703025685372576256)
 (.leaf 2703644904786119168))))
 (.node 4 (.node 2 (.node 1 (.leaf 2703834166452017152)
 (.leaf 2704477964501566976))
 (.node 1 (.leaf 2704682852126212096)
 (.leaf 2705310731033999872)))
 (.node 2 (.node 1 (.leaf 2705414053782669312)
 (.leaf 2706106203574011392))
 (.node 1 (.leaf 2708115592952783360)
 (.leaf 2708588340312765952)))))
 (.node 8 (.node 4 (.node 2 (.node 1 (.leaf 2711842069968019968)
 (.leaf 2712352580489667584))
 (.node 1 (.leaf 2712499930185223680)
 (.leaf 2712857451561113600)))
 (.node 2 (.node 1 (.leaf 2712879492104841216)
 (.leaf 2712917717763343872))
 (.node 1 (.leaf 2713469086226163712)
 (.leaf 2714244325465039872))))
 (.node 4 (.node 2 (.node 1 (.leaf 2715709369892791808)
 (.leaf 2717643913740950528))
 (.node 1 (.leaf 2717733831455147008)
 (.leaf 2717778309982576128)))
 (.node 2 (.node 1 (.leaf 2717809483938804224)
 (.leaf 2723029412627026432))
 (.node 1 (.leaf 2724106990881781248)
 (.leaf 2726289192496767488))))))
 (.node 16 (.node 8 (.node 4 (.node 2 (.node 1 (.leaf 2726365460690179072)
 (.leaf 2727688267398833664))
 (.node 1 (.leaf 2728294484930921472)
 (.leaf 2728424376538360832)))
 (.node 2 (.node 1 (.leaf 2728924837276538368)
 (.leaf 2729872189049223168))
 (.node 1 (.leaf 2730534554283101696)
 (.leaf 2731627096015012352))))
 (.node 4 (.node 2 (.node 1 (.leaf 2732004563709762560)
 (.leaf 2735044293912437760))
 (.node 1 (.leaf 2735394400089985024)
 (.leaf 2735955338958917632)))
 (.node 2 (.node 1 (.leaf 2737154569604988416)
 (.leaf 2738079723352072704))
 (.node 1 (.leaf 2741719411011795456)
 (.leaf 2742949219597359616)))))
 (.node 8 (.node 4 (.node 2 (.node 1 (.leaf 2743673997294300672)
 (.leaf 2744319118322653696))
 (.node 1 (.leaf 2744719562924098048)
 (.leaf 2750517103692906496)))
 (.node 2 (.node 1 (.leaf 2751463308823766528)
 (.leaf 2752798875106348544))
 (.node 1 (.leaf 2752837933001631744)
 (.leaf 2753325311484970496))))
 (.node 4 (.node 2 (.node 1 (.leaf 2754103803652546560)
 (.leaf 2754500007688281088))
 (.node 1 (.leaf 2754699806334716416)
 (.leaf 2756650451048667136)))
 (.node 2 (.node 1 (.leaf 2757562185793984512)
 (.leaf 2760850639846462464))
 (.node 1 (.leaf 2769284811971592704)
 (.leaf 2769894429819665408)))))))))
 (.node 64 (.node 32 (.node 16 (.node 8 (.node 4 (.node 2 (.node 1 (.leaf 2770631902551712256)
 (.leaf 2771122246534880256))
 (.node 1 (.leaf 2771329673299666944)
 (.leaf 2772390022625766912)))
 (.node 2 (.node 1 (.leaf 2773746072979566080)
 (.leaf 2775771135331479552))
 (.node 1 (.leaf 2776968767182893056)
 (.leaf 2777602319571624960))))
 (.node 4 (.node 2 (.node 1 (.leaf 2778374166460855296)
 (.leaf 2779504205601492480))
 (.node 1 (.leaf 2779518152983463424)
 (.leaf 2780920211689894400)))
 (.node 2 (.node 1 (.leaf 2781114791414623232)
 (.leaf 2781648528575379456))
 (.node 1 (.leaf 2782788619211001856)
 (.leaf 2783178514088321536)))))
 (.node 8 (.node 4 (.node 2 (.node 1 (.leaf 2784458259851590656)
 (.leaf 2784834475387556352))
 (.node 1 (.leaf 2785531800553122816)
 (.leaf 2785844479920168448)))
 (.node 2 (.node 1 (.leaf 2785945784998635008)
 (.leaf 2786095262940258304))
 (.node 1 (.leaf 2786132033184679424)
 (.leaf 2786952820488761344))))
 (.node 4 (.node 2 (.node 1 (.leaf 2787814237382839296)
 (.leaf 2789712252144437248))
 (.node 1 (.leaf 2790042366366239744)
 (.leaf 2791219602731938304)))
 (.node 2 (.node 1 (.leaf 2793728597366691840)
 (.leaf 2794123984037723136))
 (.node 1 (.leaf 2794764995770583040)
 (.leaf 2795679138132209152))))))
 (.node 16 (.node 8 (.node 4 (.node 2 (.node 1 (.leaf 2795772619858473984)
 (.leaf 2796430544474076160))
 (.node 1 (.leaf 2797277103997237760)
 (.leaf 2800898026849830400)))
 (.node 2 (.node 1 (.leaf 2801389355878758912)
 (.leaf 2802896121934899712))
 (.node 1 (.leaf 2805042277831054848)
 (.leaf 2806595972729297920))))
 (.node 4 (.node 2 (.node 1 (.leaf 2806921143319792640)
 (.leaf 2808719590124317696))
 (.node 1 (.leaf 2809164412855736320)
 (.leaf 2811131887529505280)))
 (.node 2 (.node 1 (.leaf 2811638710526764544)
 (.leaf 2811856099043572736))
 (.node 1 (.leaf 2812271275932113920)
 (.leaf 2812447016329492992)))))
 (.node 8 (.node 4 (.node 2 (.node 1 (.leaf 2812929363877899264)
 (.leaf 2814017942599721472))
 (.node 1 (.leaf 2816026898900322816)
 (.leaf 2819561399624776192)))
 (.node 2 (.node 1 (.leaf 2819831907400841728)
 (.leaf 2823773471461846528))
 (.node 1 (.leaf 2824751769574553088)
 (.leaf 2825878139170596352))))
 (.node 4 (.node 2 (.node 1 (.leaf 2826227440128292864)
 (.leaf 2826229336913082368))
 (.node 1 (.leaf 2829292920428224000)
 (.leaf 2829981227611213312)))
 (.node 2 (.node 1 (.leaf 2830630968232581632)
 (.leaf 2831304312589956096))
 (.node 1 (.leaf 2832696903984742912)
 (.leaf 2832808215039316992)))))))
 (.node 32 (.node 16 (.node 8 (.node 4 (.node 2 (.node 1 (.leaf 2832967160931393024)
 (.leaf 2833129687706805248))
 (.node 1 (.leaf 2833885830975353856)
 (.leaf 2836132066557244928)))
 (.node 2 (.node 1 (.leaf 2840054224910451200)
 (.leaf 2840803000489349632))
 (.node 1 (.leaf 2845155286094950400)
 (.leaf 2845427697004931584))))
 (.node 4 (.node 2 (.node 1 (.leaf 2845989575999654400)
 (.leaf 2848780984212264960))
 (.node 1 (.leaf 2851687901346988544)
 (.leaf 2856210428579108352)))
 (.node 2 (.node 1 (.leaf 2858581035981680640)
 (.leaf 2858859011521710080))
 (.node 1 (.leaf 2858875591530775040)
 (.leaf 2859095629576154624)))))
 (.node 8 (.node 4 (.node 2 (.node 1 (.leaf 2859451000490782208)
 (.leaf 2860940223667576320))
 (.node 1 (.leaf 2861437735447533056)
 (.leaf 2862235131233994752)))
 (.node 2 (.node 1 (.leaf 2863633231508048896)
 (.leaf 2864594985974548480))
 (.node 1 (.leaf 2864929141010502144)
 (.leaf 2865012075732859392))))
 (.node 4 (.node 2 (.node 1 (.leaf 2865445220459490304)
 (.leaf 2866777223585031680))
 (.node 1 (.leaf 2867022964413301248)
 (.leaf 2868465460305581568)))
 (.node 2 (.node 1 (.leaf 2874436607579403264)
 (.leaf 2875872991112168448))
 (.node 1 (.leaf 2877946648426438144)
 (.leaf 2880610426115417600))))))
 (.leaf 2882303761517117440))))))

/-- Values of the areal correction factor, times 2^59. -/
def cfaData : DTree :=
 (.node 512 (.node 256 (.node 128 (.node 64 (.node 32 (.node 16 (.node 8 (.node 4 (.node 2 (.node 1 (.leaf 288230376151711744)
 (.leaf 290318647074627328))
 (.node 1 (.leaf 292655793299954432)
 (.leaf 292778568028814464)))
 (.node 2 (.node 1 (.leaf 293615249343705984)
 (.leaf 295272620416550912))
 (.node 1 (.leaf 296027869191952896)
 (.leaf 296567096235485824))))
 (.node 4 (.node 2 (.node 1 (.leaf 296917470228193856)
 (.leaf 297100929927773184))
 (.node 1 (.leaf 297705870776364352)
 (.leaf 298324838922132608)))
 (.node 2 (.node 1 (.leaf 298338354484567104)
 (.leaf 299834778499165824))
 (.node 1 (.leaf 300784521700877504)
 (.leaf 302783196169809536)))))
 (.node 8 (.node 4 (.node 2 (.node 1 (.leaf 303865987884801664)
 (.leaf 306436370744804992))
 (.node 1 (.leaf 308706161456393472)
 (.leaf 308764208057478400)))
 (.node 2 (.node 1 (.leaf 310214280075843712)
 (.leaf 310391995939493632))
 (.node 1 (.leaf 310716386413020800)
 (.leaf 311058014220610752))))
 (.node 4 (.node 2 (.node 1 (.leaf 314071594180049408)
 (.leaf 314181462743252160))
 (.node 1 (.leaf 314432693999747968)
 (.leaf 315875423006354432)))
 (.node 2 (.node 1 (.leaf 316212660357892352)
 (.leaf 317771476680947136))
 (.node 1 (.leaf 319278268527944320)
 (.leaf 319529233517472000))))))
 (.node 16 (.node 8 (.node 4 (.node 2 (.node 1 (.leaf 319554853048725504)
 (.leaf 319716187917949440))
 (.node 1 (.leaf 320259508928904320)
 (.leaf 321896527628948480)))
 (.node 2 (.node 1 (.leaf 324695038616039488)
 (.leaf 325937668995556672))
 (.node 1 (.leaf 326016335426369792)
 (.leaf 327410425296461952))))
 (.node 4 (.node 2 (.node 1 (.leaf 327843531075267264)
 (.leaf 329164042655010048))
 (.node 1 (.leaf 331313946111658624)
 (.leaf 331860238896003200)))
 (.node 2 (.node 1 (.leaf 331869077929117696)
 (.leaf 332118015233332736))
 (.node 1 (.leaf 332298415684235520)
 (.leaf 332519247248950336)))))
 (.node 8 (.node 4 (.node 2 (.node 1 (.leaf 332566826092309248)
 (.leaf 335112997303194560))
 (.node 1 (.leaf 335199100995664128)
 (.leaf 335845180117313792)))
 (.node 2 (.node 1 (.leaf 338471912309655808)
 (.leaf 339191462284852416))
 (.node 1 (.leaf 339489127116044288)
 (.leaf 339956971548535872))))
 (.node 4 (.node 2 (.node 1 (.leaf 340407458087029952)
 (.leaf 340705626676966144))
 (.node 1 (.leaf 341249102201205056)
 (.leaf 341433998326866688)))
 (.node 2 (.node 1 (.leaf 341475518855622400)
 (.leaf 341997714197460800))
 (.node 1 (.leaf 342017015150827072)
 (.leaf 342049370145697152)))))))
 (.node 32 (.node 16 (.node 8 (.node 4 (.node 2 (.node 1 (.leaf 342954815875426560)
 (.leaf 343860324220372096))
 (.node 1 (.leaf 343969907898860416)
 (.leaf 344180687687201152)))
 (.node 2 (.node 1 (.leaf 344631717418384512)
 (.leaf 344839620130768768))
 (.node 1 (.leaf 345071291802130432)
 (.leaf 345110835392194048))))
 (.node 4 (.node 2 (.node 1 (.leaf 346443597600500800)
 (.leaf 347098765243832640))
 (.node 1 (.leaf 347740107402342656)
 (.leaf 347855080531342016)))
 (.node 2 (.node 1 (.leaf 347879458261847680)
 (.leaf 349457826890670144))
 (.node 1 (.leaf 349961882277584256)
 (.leaf 349972870719566720)))))
 (.node 8 (.node 4 (.node 2 (.node 1 (.leaf 350908929366759552)
 (.leaf 351045512541463232))
 (.node 1 (.leaf 351311097921329920)
 (.leaf 353033893867970496)))
 (.node 2 (.node 1 (.leaf 353471423773382912)
 (.leaf 353625317416994432))
 (.node 1 (.leaf 353822542380687360)
 (.leaf 354221451888253696))))
 (.node 4 (.node 2 (.node 1 (.leaf 355858627495101568)
 (.leaf 356906178737078144))
 (.node 1 (.leaf 357003709511182464)
 (.leaf 357246747182842496)))
 (.node 2 (.node 1 (.leaf 357412620539073408)
 (.leaf 358518964967251712))
 (.node 1 (.leaf 358657614646128640)
 (.leaf 359359278914939776))))))
 (.node 16 (.node 8 (.node 4 (.node 2 (.node 1 (.leaf 359645776523332544)
 (.leaf 361220857668955136))
 (.node 1 (.leaf 361835697484832256)
 (.leaf 363904923439295296)))
 (.node 2 (.node 1 (.leaf 365553878354951808)
 (.leaf 367335551714338240))
 (.node 1 (.leaf 371330691361127936)
 (.leaf 371476505917415296))))
 (.node 4 (.node 2 (.node 1 (.leaf 373643989397470336)
 (.leaf 373934147332807360))
 (.node 1 (.leaf 375141056270469504)
 (.leaf 375240790232342144)))
 (.node 2 (.node 1 (.leaf 375702977611662080)
 (.leaf 375825330237730560))
 (.node 1 (.leaf 376885273763547584)
 (.leaf 378090767667444800)))))
 (.node 8 (.node 4 (.node 2 (.node 1 (.leaf 378100083612618496)
 (.leaf 380968355066129152))
 (.node 1 (.leaf 384039768668503744)
 (.leaf 385143170166458176)))
 (.node 2 (.node 1 (.leaf 386221773930450368)
 (.leaf 386894827451924224))
 (.node 1 (.leaf 388172008926925184)
 (.leaf 389009118233855104))))
 (.node 4 (.node 2 (.node 1 (.leaf 389813606072670208)
 (.leaf 390722062387503360))
 (.node 1 (.leaf 391114234269781760)
 (.leaf 391534346829729536)))
 (.node 2 (.node 1 (.leaf 391548809542718848)
 (.leaf 392729396413471744))
 (.node 1 (.leaf 393738432544343104)
 (.leaf 394644809908684416))))))))
 (.node 64 (.node 32 (.node 16 (.node 8 (.node 4 (.node 2 (.node 1 (.leaf 394703078959833856)
 (.leaf 395270377347921728))
 (.node 1 (.leaf 395389910972051008)
 (.leaf 396001327228540288)))
 (.node 2 (.node 1 (.leaf 396888991202961536)
 (.leaf 397208466247442688))
 (.node 1 (.leaf 397541586451604864)
 (.leaf 398592295588821120))))
 (.node 4 (.node 2 (.node 1 (.leaf 399559929528016896)
 (.leaf 400663759928523520))
 (.node 1 (.leaf 401084992327163776)
 (.leaf 401200655761448896)))
 (.node 2 (.node 1 (.leaf 401643558586597248)
 (.leaf 402245937289406464))
 (.node 1 (.leaf 402634448311076224)
 (.leaf 402869995777370496)))))
 (.node 8 (.node 4 (.node 2 (.node 1 (.leaf 402973404542320000)
 (.leaf 404108799357757056))
 (.node 1 (.leaf 404300511951083520)
 (.leaf 405172714238599936)))
 (.node 2 (.node 1 (.leaf 405683513904423424)
 (.leaf 406136043815246848))
 (.node 1 (.leaf 407340328726644480)
 (.leaf 408207545492113344))))
 (.node 4 (.node 2 (.node 1 (.leaf 408408299778206208)
 (.leaf 409170119849591680))
 (.node 1 (.leaf 409226030287927424)
 (.leaf 410491795171795968)))
 (.node 2 (.node 1 (.leaf 410772547002798976)
 (.leaf 412810285620326592))
 (.node 1 (.leaf 413143029839278336)
 (.leaf 413472954586835840))))))
 (.node 16 (.node 8 (.node 4 (.node 2 (.node 1 (.leaf 413807913433025920)
 (.leaf 413993182094498944))
 (.node 1 (.leaf 414187782465515264)
 (.leaf 414335962514244800)))
 (.node 2 (.node 1 (.leaf 415658429084131072)
 (.leaf 417348919435269376))
 (.node 1 (.leaf 417672245960093824)
 (.leaf 418423219365926592))))
 (.node 4 (.node 2 (.node 1 (.leaf 418662025275773312)
 (.leaf 418778016964698752))
 (.node 1 (.leaf 422625453444361344)
 (.leaf 422797850131869184)))
 (.node 2 (.node 1 (.leaf 423063953225052416)
 (.leaf 424864060049754112))
 (.node 1 (.leaf 425474333312940544)
 (.leaf 428428976901871488)))))
 (.node 8 (.node 4 (.node 2 (.node 1 (.leaf 429398456238820608)
 (.leaf 429519273123246848))
 (.node 1 (.leaf 429573059603693824)
 (.leaf 429809908585032320)))
 (.node 2 (.node 1 (.leaf 430219305085521280)
 (.leaf 430875558595109120))
 (.node 1 (.leaf 431355873372598848)
 (.leaf 432199129869066240))))
 (.node 4 (.node 2 (.node 1 (.leaf 432595876727011072)
 (.leaf 433846971967005568))
 (.node 1 (.leaf 433951809222925696)
 (.leaf 434002732094262400)))
 (.node 2 (.node 1 (.leaf 434373847474066176)
 (.leaf 434852315079060480))
 (.node 1 (.leaf 435346371201115008)
 (.leaf 435646568243664000)))))))
 (.node 32 (.node 16 (.node 8 (.node 4 (.node 2 (.node 1 (.leaf 436535648014751360)
 (.leaf 436537356833419904))
 (.node 1 (.leaf 437283744198867968)
 (.leaf 437997117427451136)))
 (.node 2 (.node 1 (.leaf 438655655621836544)
 (.leaf 441050812781472640))
 (.node 1 (.leaf 441669382503985536)
 (.leaf 442112899969903168))))
 (.node 4 (.node 2 (.node 1 (.leaf 442626431579074240)
 (.leaf 443146316522989248))
 (.node 1 (.leaf 444680392952005376)
 (.leaf 447232928116642432)))
 (.node 2 (.node 1 (.leaf 448902579493039360)
 (.leaf 449030333385759872))
 (.node 1 (.leaf 449471291520273408)
 (.leaf 449578201343940736)))))
 (.node 8 (.node 4 (.node 2 (.node 1 (.leaf 449763715321406528)
 (.leaf 450605491888861568))
 (.node 1 (.leaf 450799647866512960)
 (.leaf 451087785025176192)))
 (.node 2 (.node 1 (.leaf 451655831223297088)
 (.leaf 451872170620545920))
 (.node 1 (.leaf 452357984944443008)
 (.leaf 452438593646562944))))
 (.node 4 (.node 2 (.node 1 (.leaf 453018084614348928)
 (.leaf 453088393359659072))
 (.node 1 (.leaf 453278862697398016)
 (.leaf 454437589174405632)))
 (.node 2 (.node 1 (.leaf 455518898265461760)
 (.leaf 455840307542018688))
 (.node 1 (.leaf 456055842583062848)
 (.leaf 457434389799747520))))))
 (.node 16 (.node 8 (.node 4 (.node 2 (.node 1 (.leaf 458443495708746432)
 (.leaf 458940891127553024))
 (.node 1 (.leaf 459458551465910400)
 (.leaf 459860861324689152)))
 (.node 2 (.node 1 (.leaf 460162695317081344)
 (.leaf 461981572559408000))
 (.node 1 (.leaf 463448807977645504)
 (.leaf 463565055889650176))))
 (.node 4 (.node 2 (.node 1 (.leaf 463888840328412608)
 (.leaf 463958715880160192))
 (.node 1 (.leaf 464574254834418432)
 (.leaf 465040826999770560)))
 (.node 2 (.node 1 (.leaf 465561043892557184)
 (.leaf 465875425473062400))
 (.node 1 (.leaf 466208241464812544)
 (.leaf 466803502338339072)))))
 (.node 8 (.node 4 (.node 2 (.node 1 (.leaf 466863545752785344)
 (.leaf 466959146175289728))
 (.node 1 (.leaf 467711952775658240)
 (.leaf 468606206047890048)))
 (.node 2 (.node 1 (.leaf 469186076786871808)
 (.leaf 469279562509982720))
 (.node 1 (.leaf 469519520032246720)
 (.leaf 469679894762009216))))
 (.node 4 (.node 2 (.node 1 (.leaf 469749672570856704)
 (.leaf 470395569221158464))
 (.node 1 (.leaf 470607997638477632)
 (.leaf 471650463762114240)))
 (.node 2 (.node 1 (.leaf 473117251725394944)
 (.leaf 473218432697584576))
 (.node 1 (.leaf 473426376197129280)
 (.leaf 473710047259832832)))))))))
 (.node 128 (.node 64 (.node 32 (.node 16 (.node 8 (.node 4 (.node 2 (.node 1 (.leaf 473946536002678784)
 (.leaf 473962007674614016))
 (.node 1 (.leaf 474745136457927040)
 (.leaf 475062032050429696)))
 (.node 2 (.node 1 (.leaf 475158517390160256)
 (.leaf 476307787688396224))
 (.node 1 (.leaf 476393131332291712)
 (.leaf 480441796616916928))))
 (.node 4 (.node 2 (.node 1 (.leaf 480668034171459392)
 (.leaf 480752102539076864))
 (.node 1 (.leaf 481076275116644096)
 (.leaf 481094338442652608)))
 (.node 2 (.node 1 (.leaf 481557324762444160)
 (.leaf 481714855303891200))
 (.node 1 (.leaf 482435973503050368)
 (.leaf 482526672693607104)))))
 (.node 8 (.node 4 (.node 2 (.node 1 (.leaf 482665906947260992)
 (.leaf 483127669250819648))
 (.node 1 (.leaf 483872090060323456)
 (.leaf 484086498907344256)))
 (.node 2 (.node 1 (.leaf 484216902291963776)
 (.leaf 484531244308403200))
 (.node 1 (.leaf 485303480118312640)
 (.leaf 485627306070905728))))
 (.node 4 (.node 2 (.node 1 (.leaf 486253939017152128)
 (.leaf 487327124996757248))
 (.node 1 (.leaf 487612160587560320)
 (.leaf 488108105072021440)))
 (.node 2 (.node 1 (.leaf 488792710539697792)
 (.leaf 489128815124924032))
 (.node 1 (.leaf 489748971583104384)
 (.leaf 491692719412902656))))))
 (.node 16 (.node 8 (.node 4 (.node 2 (.node 1 (.leaf 491791411571114880)
 (.leaf 491937702159845760))
 (.node 1 (.leaf 492112421349769088)
 (.leaf 492240104398165696)))
 (.node 2 (.node 1 (.leaf 492991702345243520)
 (.leaf 494411386033708288))
 (.node 1 (.leaf 494767511382557376)
 (.leaf 496158480525802816))))
 (.node 4 (.node 2 (.node 1 (.leaf 496187926521778048)
 (.leaf 496209600671687168))
 (.node 1 (.leaf 496296721254947520)
 (.leaf 496397108135379584)))
 (.node 2 (.node 1 (.leaf 497444936102633792)
 (.leaf 498376976093997568))
 (.node 1 (.leaf 498591712927580608)
 (.leaf 498674940060866688)))))
 (.node 8 (.node 4 (.node 2 (.node 1 (.leaf 499278368258982272)
 (.leaf 499366253835724032))
 (.node 1 (.leaf 500825461828453056)
 (.leaf 501127230341000512)))
 (.node 2 (.node 1 (.leaf 501189958909010048)
 (.leaf 501210700309729728))
 (.node 1 (.leaf 501607880742949632)
 (.leaf 501913210261840384))))
 (.node 4 (.node 2 (.node 1 (.leaf 501981211896954368)
 (.leaf 502827999483837824))
 (.node 1 (.leaf 503017905601788160)
 (.leaf 503281235807443392)))
 (.node 2 (.node 1 (.leaf 503991238513062336)
 (.leaf 504080597439491904))
 (.node 1 (.leaf 504256673220993344)
 (.leaf 505869048387230720)))))))
 (.node 32 (.node 16 (.node 8 (.node 4 (.node 2 (.node 1 (.leaf 506606957409488000)
 (.leaf 508629566101466240))
 (.node 1 (.leaf 508666028098105024)
 (.leaf 511431083049356544)))
 (.node 2 (.node 1 (.leaf 511570058089765312)
 (.leaf 511722657811644416))
 (.node 1 (.leaf 511848294916786752)
 (.leaf 512128892652360704))))
 (.node 4 (.node 2 (.node 1 (.leaf 512316993053945536)
 (.leaf 512561972955859072))
 (.node 1 (.leaf 512620692358446912)
 (.leaf 513306132701930624)))
 (.node 2 (.node 1 (.leaf 513746420261259712)
 (.leaf 514800011128150080))
 (.node 1 (.leaf 515534314893969472)
 (.leaf 515658992717061824)))))
 (.node 8 (.node 4 (.node 2 (.node 1 (.leaf 515666756967039296)
 (.leaf 515765137522871424))
 (.node 1 (.leaf 515838058459080768)
 (.leaf 516634667107020416)))
 (.node 2 (.node 1 (.leaf 516960973524552384)
 (.leaf 517031889526408576))
 (.node 1 (.leaf 517191268486494784)
 (.leaf 517281923442174720))))
 (.node 4 (.node 2 (.node 1 (.leaf 517824953897429696)
 (.leaf 518248323383837248))
 (.node 1 (.leaf 518526388298380224)
 (.leaf 519301897862488704)))
 (.node 2 (.node 1 (.leaf 519411677542341888)
 (.leaf 521229129463985088))
 (.node 1 (.leaf 521250925038445568)
 (.leaf 521541773468047808))))))
 (.node 16 (.node 8 (.node 4 (.node 2 (.node 1 (.leaf 521761224531036224)
 (.leaf 522985150816641344))
 (.node 1 (.leaf 523534298734838528)
 (.leaf 523894329310026432)))
 (.node 2 (.node 1 (.leaf 525223911029698368)
 (.leaf 526523973861744000))
 (.node 1 (.leaf 526649285611156352)
 (.leaf 527220208288398336))))
 (.node 4 (.node 2 (.node 1 (.leaf 527749649238412224)
 (.leaf 529060103085649472))
 (.node 1 (.leaf 529080340136881152)
 (.leaf 529711412168666368)))
 (.node 2 (.node 1 (.leaf 531071108068261888)
 (.leaf 531157676439133376))
 (.node 1 (.leaf 531206121702268096)
 (.leaf 531488040465403200)))))
 (.node 8 (.node 4 (.node 2 (.node 1 (.leaf 531772552042083264)
 (.leaf 531932457662976256))
 (.node 1 (.leaf 533244342654476928)
 (.leaf 533717355030978432)))
 (.node 2 (.node 1 (.leaf 533960433010714880)
 (.leaf 534174105152024448))
 (.node 1 (.leaf 536258309933320960)
 (.leaf 538389559557479104))))
 (.node 4 (.node 2 (.node 1 (.leaf 538734671321222656)
 (.leaf 539492035908768128))
 (.node 1 (.leaf 540160526459912064)
 (.leaf 540368561553273920)))
 (.node 2 (.node 1 (.leaf 540953588486372480)
 (.leaf 542106578196598976))
 (.node 1 (.leaf 542281903876417152)
 (.leaf 542340273112243648))))))))
 (.node 64 (.node 32 (.node 16 (.node 8 (.node 4 (.node 2 (.node 1 (.leaf 543099309305894208)
 (.leaf 543254282807640256))
 (.node 1 (.leaf 544859974073489216)
 (.leaf 545123512096804032)))
 (.node 2 (.node 1 (.leaf 546430166537417856)
 (.leaf 547056640773640960))
 (.node 1 (.leaf 550269548676552896)
 (.leaf 550411927487760512))))
 (.node 4 (.node 2 (.node 1 (.leaf 551517316571434752)
 (.leaf 552125426469401536))
 (.node 1 (.leaf 552523785909940544)
 (.leaf 553433652768241152)))
 (.node 2 (.node 1 (.leaf 553838585198145728)
 (.leaf 554128998325556032))
 (.node 1 (.leaf 554252135800780352)
 (.leaf 555339829412416256)))))
 (.node 8 (.node 4 (.node 2 (.node 1 (.leaf 555819333959987392)
 (.leaf 555896580896622272))
 (.node 1 (.leaf 557205614951315392)
 (.leaf 559179072503765248)))
 (.node 2 (.node 1 (.leaf 559856281041007168)
 (.leaf 559948238550543232))
 (.node 1 (.leaf 560173525959948352)
 (.leaf 560204504350699712))))
 (.node 4 (.node 2 (.node 1 (.leaf 560273103560195904)
 (.leaf 560572935534628672))
 (.node 1 (.leaf 560607053132683712)
 (.leaf 562037324924161856)))
 (.node 2 (.node 1 (.leaf 562124357639132352)
 (.leaf 562463615499492160))
 (.node 1 (.leaf 563059460441833472)
 (.leaf 564397375305575360))))))
 (.node 16 (.node 8 (.node 4 (.node 2 (.node 1 (.leaf 564516554209450240)
 (.leaf 565223200216290496))
 (.node 1 (.leaf 565489706682966400)
 (.leaf 565998609154538240)))
 (.node 2 (.node 1 (.leaf 566147499806529280)
 (.leaf 566228608337808832))
 (.node 1 (.leaf 566274756178627072)
 (.leaf 566474605446241088))))
 (.node 4 (.node 2 (.node 1 (.leaf 566687810190835968)
 (.leaf 566985405236490368))
 (.node 1 (.leaf 566996114208402304)
 (.leaf 567060898766878400)))
 (.node 2 (.node 1 (.leaf 567277503837118656)
 (.leaf 568284685851182656))
 (.node 1 (.leaf 568374826212443520)
 (.leaf 569041843244617024)))))
 (.node 8 (.node 4 (.node 2 (.node 1 (.leaf 570040958227372096)
 (.leaf 570249556627934784))
 (.node 1 (.leaf 570539752692727936)
 (.leaf 571350336890522816)))
 (.node 2 (.node 1 (.leaf 571981846021160512)
 (.leaf 572128673887249088))
 (.node 1 (.leaf 573413263605463744)
 (.leaf 574446387080827968))))
 (.node 4 (.node 2 (.node 1 (.leaf 575061777788480320)
 (.leaf 575431327701709184))
 (.node 1 (.leaf 575486609817168704)
 (.leaf 575724148932175616)))
 (.node 2 (.node 1 (.leaf 576460752303423488)
 (.leaf 577434894789678336))
 (.node 1 (.leaf 577859726818366720)
 (.leaf 578481206780118144)))))))
 (.node 32 (.node 16 (.node 8 (.node 4 (.node 2 (.node 1 (.leaf 578824924343488128)
 (.leaf 582381751914119040))
 (.node 1 (.leaf 582598667975629952)
 (.leaf 583071429458465280)))
 (.node 2 (.node 1 (.leaf 584546678394403456)
 (.leaf 585644000769728256))
 (.node 1 (.leaf 585860605839968640)
 (.leaf 586233694416011008))))
 (.node 4 (.node 2 (.node 1 (.leaf 586253148222408064)
 (.leaf 588300381767499264))
 (.node 1 (.leaf 588404950397396736)
 (.leaf 592322691437955968)))
 (.node 2 (.node 1 (.leaf 593995584258330368)
 (.leaf 596344302858941696))
 (.node 1 (.leaf 597232504761152640)
 (.leaf 597292635228500480)))))
 (.node 8 (.node 4 (.node 2 (.node 1 (.leaf 598792506281291008)
 (.leaf 600965292576057216))
 (.node 1 (.leaf 602142649278393344)
 (.leaf 602509577119086464)))
 (.node 2 (.node 1 (.leaf 604321478397483776)
 (.leaf 605833859859163136))
 (.node 1 (.leaf 605992374271210112)
 (.leaf 606207735696797952))))
 (.node 4 (.node 2 (.node 1 (.leaf 606491338069429120)
 (.leaf 611943968041280640))
 (.node 1 (.leaf 612760978146934912)
 (.leaf 612777806401786368)))
 (.node 2 (.node 1 (.leaf 612940999194043392)
 (.leaf 613429468698078848))
 (.node 1 (.leaf 615654766128476288)
 (.leaf 618961071596132096))))))
 (.node 16 (.node 8 (.node 4 (.node 2 (.node 1 (.leaf 619878576408273408)
 (.leaf 621148952564763648))
 (.node 1 (.leaf 621715382904578816)
 (.leaf 621763828167713664)))
 (.node 2 (.node 1 (.leaf 622807131835633152)
 (.leaf 623210092438180608))
 (.node 1 (.leaf 623861401521197568)
 (.leaf 623897544455897856))))
 (.node 4 (.node 2 (.node 1 (.leaf 626923348183655808)
 (.leaf 627597658818962304))
 (.node 1 (.leaf 627954938128643072)
 (.leaf 629027175296820608)))
 (.node 2 (.node 1 (.leaf 629936353790205696)
 (.leaf 630200417194906368))
 (.node 1 (.leaf 630873850391300480)
 (.leaf 631670579568401408)))))
 (.node 8 (.node 4 (.node 2 (.node 1 (.leaf 635730236120352256)
 (.leaf 637254170053958912))
 (.node 1 (.leaf 638121493478696832)
 (.leaf 638967743982599552)))
 (.node 2 (.node 1 (.leaf 641073209690060160)
 (.leaf 641745061426667648))
 (.node 1 (.leaf 643182518473312256)
 (.leaf 645868850438178688))))
 (.node 4 (.node 2 (.node 1 (.leaf 646314547197358976)
 (.leaf 650321886079762816))
 (.node 1 (.leaf 651008294345006592)
 (.leaf 651022288966466432)))
 (.node 2 (.node 1 (.leaf 651743644970380032)
 (.leaf 653555250771122944))
 (.node 1 (.leaf 654329791679266304)
 (.leaf 656515272988726528))))))))))
 (.node 64 (.node 32 (.node 16 (.node 8 (.node 4 (.node 2 (.node 1 (.leaf 660681400208681344)
 (.leaf 661130093035732096))
 (.node 1 (.leaf 663262821607665152)
 (.leaf 667294198535941248)))
 (.node 2 (.node 1 (.leaf 667618024488534272)
 (.leaf 668290847282305408))
 (.node 1 (.leaf 668704602314883200)
 (.leaf 669793835356027264))))
 (.node 4 (.node 2 (.node 1 (.leaf 670394831913239808)
 (.leaf 670485531103796608))
 (.node 1 (.leaf 670809926060366848)
 (.leaf 671364179844402816)))
 (.node 2 (.node 1 (.leaf 671732080542234112)
 (.leaf 671901368300788224))
 (.node 1 (.leaf 672169402067770112)
 (.leaf 672419177347230464)))))
 (.node 8 (.node 4 (.node 2 (.node 1 (.leaf 677859472556417280)
 (.leaf 678974968604168192))
 (.node 1 (.leaf 679266807120926976)
 (.leaf 679703071909262336)))
 (.node 2 (.node 1 (.leaf 680403065641350784)
 (.leaf 682903700170507008))
 (.node 1 (.leaf 683735427819975168)
 (.leaf 686154549410904320))))
 (.node 4 (.node 2 (.node 1 (.leaf 686498851338796544)
 (.leaf 687046079133784576))
 (.node 1 (.leaf 689472696629201408)
 (.leaf 690156140812610432)))
 (.node 2 (.node 1 (.leaf 692621020729938176)
 (.leaf 693060643282157824))
 (.node 1 (.leaf 693462953140936576)
 (.leaf 693536055456682880))))))
 (.node 16 (.node 8 (.node 4 (.node 2 (.node 1 (.leaf 695731335742002048)
 (.leaf 697367555808951168))
 (.node 1 (.leaf 699642641909448960)
 (.leaf 700482910960284032)))
 (.node 2 (.node 1 (.leaf 700543968802573056)
 (.leaf 701265673383549952))
 (.node 1 (.leaf 702292493496885120)
 (.leaf 703343303262906240))))
 (.node 4 (.node 2 (.node 1 (.leaf 704018925113807616)
 (.leaf 704170418708200704))
 (.node 1 (.leaf 705688576490204544)
 (.leaf 707411979469130496)))
 (.node 2 (.node 1 (.leaf 707711931916771072)
 (.leaf 707881672104879872))
 (.node 1 (.leaf 711870691825374336)
 (.leaf 712340337812324608)))))
 (.node 8 (.node 4 (.node 2 (.node 1 (.leaf 713324889775030400)
 (.leaf 714924387179395840))
 (.node 1 (.leaf 716292984236120576)
 (.leaf 718737943679052800)))
 (.node 2 (.node 1 (.leaf 720998302564848128)
 (.leaf 721579152505140224))
 (.node 1 (.leaf 723523048368026368)
 (.leaf 724492527704975488))))
 (.node 4 (.node 2 (.node 1 (.leaf 725742230095470592)
 (.leaf 725909955626721024))
 (.node 1 (.leaf 729857551381794560)
 (.leaf 736052219942110720)))
 (.node 2 (.node 1 (.leaf 738928322512348032)
 (.leaf 746785460791600128))
 (.node 1 (.leaf 747748790368247040)
 (.leaf 750191497792193024)))))))
 (.node 32 (.node 16 (.node 8 (.node 4 (.node 2 (.node 1 (.leaf 751277946020249728)
 (.leaf 752257744678323456))
 (.node 1 (.leaf 752432575275224960)
 (.leaf 756920177378306688)))
 (.node 2 (.node 1 (.leaf 757830196121917952)
 (.leaf 762029636560369280))
 (.node 1 (.leaf 762199442219343616)
 (.leaf 764034491143033344))))
 (.node 4 (.node 2 (.node 1 (.leaf 764599523814252416)
 (.leaf 764749495679921792))
 (.node 1 (.leaf 764908443980757120)
 (.leaf 766679636764784128)))
 (.node 2 (.node 1 (.leaf 771953149540717824)
 (.leaf 774830736939402240))
 (.node 1 (.leaf 775043022309039616)
 (.leaf 777096174369116416)))))
 (.node 8 (.node 4 (.node 2 (.node 1 (.leaf 777218526995184896)
 (.leaf 779277515209376640))
 (.node 1 (.leaf 783116581300291840)
 (.leaf 785585952892508672)))
 (.node 2 (.node 1 (.leaf 786774954603213440)
 (.leaf 787367626251895168))
 (.node 1 (.leaf 791700646937891840)
 (.leaf 794263889960718336))))
 (.node 4 (.node 2 (.node 1 (.leaf 797062877111745408)
 (.leaf 801610406685517056))
 (.node 1 (.leaf 801875992065383680)
 (.leaf 802012575240087424)))
 (.node 2 (.node 1 (.leaf 805822739363014400)
 (.leaf 806162066826004864))
 (.node 1 (.leaf 806477907006346240)
 (.leaf 808951596707986560))))))
 (.node 16 (.node 8 (.node 4 (.node 2 (.node 1 (.leaf 809061180386474880)
 (.leaf 810923790409386240))
 (.node 1 (.leaf 811487506279980288)
 (.leaf 812514046519816960)))
 (.node 2 (.node 1 (.leaf 812964533058311168)
 (.leaf 813432377490802688))
 (.node 1 (.leaf 816582144306229632)
 (.leaf 820803489373514240))))
 (.node 4 (.node 2 (.node 1 (.leaf 821607558495188352)
 (.leaf 823757461951836928))
 (.node 1 (.leaf 826905169180477184)
 (.leaf 833366651558121472)))
 (.node 2 (.node 1 (.leaf 833392271089374976)
 (.leaf 850138308437037440))
 (.node 1 (.leaf 855200136951994496)
 (.leaf 857648884190296064)))))
 (.node 2 (.node 1 (.leaf 861986502331793664)
 (.leaf 862602857532219648))
 (.leaf 864691128455135232))))))

/-- Values of the station correction factor, times 2^59. -/
def cfsData : DTree :=
 (.node 256 (.node 128 (.node 64 (.node 32 (.node 16 (.node 8 (.node 4 (.node 2 (.node 1 (.leaf 7132204524252023)
 (.leaf 14413801392665602))
 (.node 1 (.leaf 23280842308197760)
 (.leaf 23898987305190824)))
 (.node 2 (.node 1 (.leaf 25012807549636840)
 (.leaf 27963475285286372))
 (.node 1 (.leaf 35829518392796516)
 (.leaf 39066389343982608))))
 (.node 4 (.node 2 (.node 1 (.leaf 42040951208057208)
 (.leaf 43270718274030040))
 (.node 1 (.leaf 44175100284901472)
 (.leaf 55199798553763912)))
 (.node 2 (.node 1 (.leaf 63932481055722424)
 (.leaf 69513490220516408))
 (.node 1 (.leaf 71512230433863536)
 (.leaf 94163730029891456)))))
 (.node 8 (.node 4 (.node 2 (.node 1 (.leaf 98631685179037856)
 (.leaf 99691672881582032))
 (.node 1 (.leaf 100498898354635840)
 (.leaf 101790844553180336)))
 (.node 2 (.node 1 (.leaf 105621936102882576)
 (.leaf 123701681111649376))
 (.node 1 (.leaf 125315862963373632)
 (.leaf 127239696925035616))))
 (.node 4 (.node 2 (.node 1 (.leaf 127249230761486960)
 (.leaf 129170358003262176))
 (.node 1 (.leaf 129961064583038464)
 (.leaf 131226849881327904)))
 (.node 2 (.node 1 (.leaf 133257918867759280)
 (.leaf 136991315217816800))
 (.node 1 (.leaf 137731495115822112)
 (.leaf 140388710812503600))))))
 (.node 16 (.node 8 (.node 4 (.node 2 (.node 1 (.leaf 146575750236658752)
 (.leaf 146712251814849920))
 (.node 1 (.leaf 149461382809934688)
 (.leaf 153825308657628800)))
 (.node 2 (.node 1 (.leaf 156785154605043456)
 (.leaf 158180296911486848))
 (.node 1 (.leaf 162241693202726400)
 (.leaf 165543472839434336))))
 (.node 4 (.node 2 (.node 1 (.leaf 168451416548820224)
 (.leaf 172672041909304768))
 (.node 1 (.leaf 174399420335052480)
 (.leaf 180441202501911712)))
 (.node 2 (.node 1 (.leaf 185249921943412736)
 (.leaf 187106821040673184))
 (.node 1 (.leaf 188140567630472448)
 (.leaf 191286446598515168)))))
 (.node 8 (.node 4 (.node 2 (.node 1 (.leaf 194964847271742944)
 (.leaf 195977727221619456))
 (.node 1 (.leaf 199038154148375296)
 (.leaf 199344712117799392)))
 (.node 2 (.node 1 (.leaf 202976535850249632)
 (.leaf 203489475150246208))
 (.node 1 (.leaf 211241772471637792)
 (.leaf 214029387409020352))))
 (.node 4 (.node 2 (.node 1 (.leaf 223078846431782720)
 (.leaf 223129927716466432))
 (.node 1 (.leaf 224141657625910624)
 (.leaf 234591267313583840)))
 (.node 2 (.node 1 (.leaf 238335403512268800)
 (.leaf 243598936203629120))
 (.node 1 (.leaf 245272150258178816)
 (.leaf 247628536726527968)))))))
 (.node 32 (.node 16 (.node 8 (.node 4 (.node 2 (.node 1 (.leaf 248216327530421024)
 (.leaf 252695329401213888))
 (.node 1 (.leaf 253394250166744096)
 (.leaf 254185462971633984)))
 (.node 2 (.node 1 (.leaf 254644354240104832)
 (.leaf 258192210207005728))
 (.node 1 (.leaf 261999275302003712)
 (.leaf 263980075720948480))))
 (.node 4 (.node 2 (.node 1 (.leaf 267863125565958432)
 (.leaf 268049577984891680))
 (.node 1 (.leaf 269064507397183616)
 (.leaf 278880611595300704)))
 (.node 2 (.node 1 (.leaf 281786827987884640)
 (.leaf 285345513709773248))
 (.node 1 (.leaf 285745423165972576)
 (.leaf 287803819480761568)))))
 (.node 8 (.node 4 (.node 2 (.node 1 (.leaf 293161349613675072)
 (.leaf 294846819444154560))
 (.node 1 (.leaf 295582124124020800)
 (.leaf 297240587901043904)))
 (.node 2 (.node 1 (.leaf 297860898384294976)
 (.leaf 301729622408305536))
 (.node 1 (.leaf 302204059809678720)
 (.leaf 305066062833217920))))
 (.node 4 (.node 2 (.node 1 (.leaf 308719214487040832)
 (.leaf 310063550519138304))
 (.node 1 (.leaf 312822275007129344)
 (.leaf 313511797765416256)))
 (.node 2 (.node 1 (.leaf 314727207997589376)
 (.leaf 316959263353997760))
 (.node 1 (.leaf 317373102073845824)
 (.leaf 317444363052101824))))))
 (.node 16 (.node 8 (.node 4 (.node 2 (.node 1 (.leaf 317756351297726528)
 (.leaf 319113425249012544))
 (.node 1 (.leaf 319609545949309504)
 (.leaf 321600200529621696)))
 (.node 2 (.node 1 (.leaf 322484615329050688)
 (.leaf 323246374433118912))
 (.node 1 (.leaf 326651925466233152)
 (.leaf 327253661109096128))))
 (.node 4 (.node 2 (.node 1 (.leaf 331150720519486976)
 (.leaf 333520849145914752))
 (.node 1 (.leaf 334623621299555584)
 (.leaf 334779483993715648)))
 (.node 2 (.node 1 (.leaf 337415745305176832)
 (.leaf 338881608546219776))
 (.node 1 (.leaf 339229295293102464)
 (.leaf 339275768253357248)))))
 (.node 8 (.node 4 (.node 2 (.node 1 (.leaf 344710698294508416)
 (.leaf 346230804437131712))
 (.node 1 (.leaf 348183921275832512)
 (.leaf 349667814509207552)))
 (.node 2 (.node 1 (.leaf 349971107107540544)
 (.leaf 352002280436501120))
 (.node 1 (.leaf 352630258410018944)
 (.leaf 353374193863008832))))
 (.node 4 (.node 2 (.node 1 (.leaf 353566177890151744)
 (.leaf 354339813377207360))
 (.node 1 (.leaf 357066038041580928)
 (.leaf 357875848752660864)))
 (.node 2 (.node 1 (.leaf 358505704447233728)
 (.leaf 358757040234546368))
 (.node 1 (.leaf 372305554867581696)
 (.leaf 372783191754032256))))))))
 (.node 64 (.node 32 (.node 16 (.node 8 (.node 4 (.node 2 (.node 1 (.leaf 373295380180265472)
 (.leaf 373527359677632896))
 (.node 1 (.leaf 374585818194439424)
 (.leaf 376681829795337408)))
 (.node 2 (.node 1 (.leaf 378568513727219520)
 (.leaf 381088657482248384))
 (.node 1 (.leaf 381757988627598720)
 (.leaf 384971892740047680))))
 (.node 4 (.node 2 (.node 1 (.leaf 387437975122225024)
 (.leaf 388437039454282304))
 (.node 1 (.leaf 392328447191643776)
 (.leaf 392795539940234944)))
 (.node 2 (.node 1 (.leaf 393616218228530368)
 (.leaf 394934815227243584))
 (.node 1 (.leaf 399395513744129024)
 (.leaf 403650735596070976)))))
 (.node 8 (.node 4 (.node 2 (.node 1 (.leaf 404954104980599552)
 (.leaf 405110854165009216))
 (.node 1 (.leaf 405134661414561280)
 (.leaf 406996470720189504)))
 (.node 2 (.node 1 (.leaf 409216318085259136)
 (.leaf 409535832811238784))
 (.node 1 (.leaf 410291708979971456)
 (.leaf 412773655105937856))))
 (.node 4 (.node 2 (.node 1 (.leaf 413332617830034112)
 (.leaf 414513802269976448))
 (.node 1 (.leaf 419284885927365312)
 (.leaf 420171091318792960)))
 (.node 2 (.node 1 (.leaf 422753599829690304)
 (.leaf 424809497019994560))
 (.node 1 (.leaf 429485430431253632)
 (.leaf 431237214328253952))))))
 (.node 16 (.node 8 (.node 4 (.node 2 (.node 1 (.leaf 431805713772351296)
 (.leaf 435064928164021504))
 (.node 1 (.leaf 437237958080965504)
 (.leaf 437292375884451904)))
 (.node 2 (.node 1 (.leaf 437486326231863296)
 (.leaf 437872994647385856))
 (.node 1 (.leaf 438979847756457280)
 (.leaf 439534553911100224))))
 (.node 4 (.node 2 (.node 1 (.leaf 439643249695193664)
 (.leaf 441060622970189568))
 (.node 1 (.leaf 441272576482694848)
 (.leaf 442232596283292416)))
 (.node 2 (.node 1 (.leaf 443150351329489600)
 (.leaf 444129617744348608))
 (.node 1 (.leaf 446327083430842432)
 (.leaf 446552440947073984)))))
 (.node 8 (.node 4 (.node 2 (.node 1 (.leaf 447730836039199296)
 (.leaf 448213858086654592))
 (.node 1 (.leaf 450888956917855936)
 (.leaf 451705929124980992)))
 (.node 2 (.node 1 (.leaf 453049965271572672)
 (.leaf 453518357823928832))
 (.node 1 (.leaf 453750907121917824)
 (.leaf 455511248433272064))))
 (.node 4 (.node 2 (.node 1 (.leaf 457037339976263808)
 (.leaf 458196936211033024))
 (.node 1 (.leaf 459429732516751744)
 (.leaf 460612591989615168)))
 (.node 2 (.node 1 (.leaf 460848248362626432)
 (.leaf 462188552108503744))
 (.node 1 (.leaf 462499600161623616)
 (.leaf 463788418449061504)))))))
 (.node 32 (.node 16 (.node 8 (.node 4 (.node 2 (.node 1 (.leaf 465711991782402048)
 (.leaf 467396739398505024))
 (.node 1 (.leaf 467403794820566400)
 (.leaf 467641606944668288)))
 (.node 2 (.node 1 (.leaf 468261508173277312)
 (.leaf 469319344043251904))
 (.node 1 (.leaf 470288628643496320)
 (.leaf 470967099773050496))))
 (.node 4 (.node 2 (.node 1 (.leaf 471954553003496576)
 (.leaf 474570080494372544))
 (.node 1 (.leaf 475719704012175616)
 (.leaf 477608679305720832)))
 (.node 2 (.node 1 (.leaf 480339851719349760)
 (.leaf 482326358688762688))
 (.node 1 (.leaf 484174420020217984)
 (.leaf 486002709507579392)))))
 (.node 8 (.node 4 (.node 2 (.node 1 (.leaf 486148979946158720)
 (.leaf 486227014321569856))
 (.node 1 (.leaf 486425112509362176)
 (.leaf 487079055720535424)))
 (.node 2 (.node 1 (.leaf 487455666791875776)
 (.leaf 488082727685253888))
 (.node 1 (.leaf 488665398154664768)
 (.leaf 489283937916846336))))
 (.node 4 (.node 2 (.node 1 (.leaf 489922186423681664)
 (.leaf 490687345345993664))
 (.node 1 (.leaf 495317528347896384)
 (.leaf 496137248365944064)))
 (.node 2 (.node 1 (.leaf 496977917622567232)
 (.leaf 497504321538081984))
 (.node 1 (.leaf 499498336190316928)
 (.leaf 499885135324295232))))))
 (.node 16 (.node 8 (.node 4 (.node 2 (.node 1 (.leaf 501058643944589120)
 (.leaf 502714716433695040))
 (.node 1 (.leaf 504376636309151552)
 (.leaf 504567906601027008)))
 (.node 2 (.node 1 (.leaf 504943485636634560)
 (.leaf 505123334462751616))
 (.node 1 (.leaf 505556841343995712)
 (.leaf 505920034718553408))))
 (.node 4 (.node 2 (.node 1 (.leaf 507046045648553024)
 (.leaf 509883593532923136))
 (.node 1 (.leaf 510857047509314944)
 (.leaf 512790388334405120)))
 (.node 2 (.node 1 (.leaf 513209827397054912)
 (.leaf 514201046347097024))
 (.node 1 (.leaf 515343050628132800)
 (.leaf 516950416978642240)))))
 (.node 8 (.node 4 (.node 2 (.node 1 (.leaf 518973398499674944)
 (.leaf 520024293311776384))
 (.node 1 (.leaf 520807527014190784)
 (.leaf 521413308325239680)))
 (.node 2 (.node 1 (.leaf 522466146581623232)
 (.leaf 523633510266439360))
 (.node 1 (.leaf 523829927701852736)
 (.leaf 524152126351427968))))
 (.node 4 (.node 2 (.node 1 (.leaf 525614963255532800)
 (.leaf 526509524449005824))
 (.node 1 (.leaf 527255171670654464)
 (.leaf 527575769211071936)))
 (.node 2 (.node 1 (.leaf 527919261424979136)
 (.leaf 532166592517807744))
 (.node 1 (.leaf 532167143894614336)
 (.leaf 533039726981875264)))))))))
 (.node 128 (.node 64 (.node 32 (.node 16 (.node 8 (.node 4 (.node 2 (.node 1 (.leaf 533481083688265472)
 (.leaf 533850253354694592))
 (.node 1 (.leaf 534039550811477760)
 (.leaf 534491495303439296)))
 (.node 2 (.node 1 (.leaf 535566863123941312)
 (.leaf 535885713551882880))
 (.node 1 (.leaf 539374872771814272)
 (.leaf 539447878556503680))))
 (.node 4 (.node 2 (.node 1 (.leaf 539473005213129344)
 (.leaf 539608140093342720))
 (.node 1 (.leaf 539986025424268288)
 (.leaf 540378963981449600)))
 (.node 2 (.node 1 (.leaf 541148374864666496)
 (.leaf 541227379458428288))
 (.node 1 (.leaf 541699982611179520)
 (.leaf 542117013925273856)))))
 (.node 8 (.node 4 (.node 2 (.node 1 (.leaf 542669745230148544)
 (.leaf 543077617437821760))
 (.node 1 (.leaf 543424059793074432)
 (.leaf 544127922222815296)))
 (.node 2 (.node 1 (.leaf 544638310783025728)
 (.leaf 545026755702737728))
 (.node 1 (.leaf 545102059317378560)
 (.leaf 547576674481043008))))
 (.node 4 (.node 2 (.node 1 (.leaf 547799782209895872)
 (.leaf 548270513753762176))
 (.node 1 (.leaf 548593316320417152)
 (.leaf 548664065811904640)))
 (.node 2 (.node 1 (.leaf 549276843633399808)
 (.leaf 549378253678325312))
 (.node 1 (.leaf 549832648279244928)
 (.leaf 549970916633477952))))))
 (.node 16 (.node 8 (.node 4 (.node 2 (.node 1 (.leaf 550713695506767552)
 (.leaf 551009748096561280))
 (.node 1 (.leaf 551329282892201664)
 (.leaf 552948681326716864)))
 (.node 2 (.node 1 (.leaf 553428774343790784)
 (.leaf 553597590332669504))
 (.node 1 (.leaf 553667858443569920)
 (.leaf 554377917540311296))))
 (.node 4 (.node 2 (.node 1 (.leaf 555478390911797760)
 (.leaf 555497879908645888))
 (.node 1 (.leaf 555821668457516800)
 (.leaf 556686662565991360)))
 (.node 2 (.node 1 (.leaf 556818997800352064)
 (.leaf 557061552610999680))
 (.node 1 (.leaf 558030484072981184)
 (.leaf 559218058739361024)))))
 (.node 8 (.node 4 (.node 2 (.node 1 (.leaf 559718127896155520)
 (.leaf 559852142569719936))
 (.node 1 (.leaf 559929204310994752)
 (.leaf 560169284773150208)))
 (.node 2 (.node 1 (.leaf 560633009478931392)
 (.leaf 560715334305056512))
 (.node 1 (.leaf 560740267713805760)
 (.leaf 560753920895712768))))
 (.node 4 (.node 2 (.node 1 (.leaf 560867697317486592)
 (.leaf 560945218074558272))
 (.node 1 (.leaf 560958509454296704)
 (.leaf 561170206092649472)))
 (.node 2 (.node 1 (.leaf 561245830392362880)
 (.leaf 561263909915892864))
 (.node 1 (.leaf 561283576411891904)
 (.leaf 561332378231546880)))))))
 (.node 32 (.node 16 (.node 8 (.node 4 (.node 2 (.node 1 (.leaf 561456057430129664)
 (.leaf 561880290495031872))
 (.node 1 (.leaf 562230988306099392)
 (.leaf 562580461706128256)))
 (.node 2 (.node 1 (.leaf 562635614168617216)
 (.leaf 563421715482223296))
 (.node 1 (.leaf 563512671848859648)
 (.leaf 564115841430643968))))
 (.node 4 (.node 2 (.node 1 (.leaf 564344610239546112)
 (.leaf 564928289239930880))
 (.node 1 (.leaf 565532218344293440)
 (.leaf 565641646601229056)))
 (.node 2 (.node 1 (.leaf 565710071546158464)
 (.leaf 565786503501143232))
 (.node 1 (.leaf 566003564366583040)
 (.leaf 566128228567862592)))))
 (.node 8 (.node 4 (.node 2 (.node 1 (.leaf 566402133980711552)
 (.leaf 566430540101300608))
 (.node 1 (.leaf 566546232109925760)
 (.leaf 566789322179540480)))
 (.node 2 (.node 1 (.leaf 567242472536529792)
 (.leaf 567391367373873984))
 (.node 1 (.leaf 567476537067570496)
 (.leaf 567800452837519808))))
 (.node 4 (.node 2 (.node 1 (.leaf 567894783419412416)
 (.leaf 567945875295000768))
 (.node 1 (.leaf 567960864321422912)
 (.leaf 567997526210918784)))
 (.node 2 (.node 1 (.leaf 568362274272893696)
 (.leaf 568366669077707200))
 (.node 1 (.leaf 568869713893640576)
 (.leaf 568922004913275392))))))
 (.node 16 (.node 8 (.node 4 (.node 2 (.node 1 (.leaf 569024577651953216)
 (.leaf 569221427572496960))
 (.node 1 (.leaf 569437885370030272)
 (.leaf 569676819534745344)))
 (.node 2 (.node 1 (.leaf 569874643630319744)
 (.leaf 569914574065582016))
 (.node 1 (.leaf 569978115434734272)
 (.leaf 570158633252707776))))
 (.node 4 (.node 2 (.node 1 (.leaf 576460752303423488)
 (.leaf 582380252891042688))
 (.node 1 (.leaf 582667570708997632)
 (.leaf 582814969196492800)))
 (.node 2 (.node 1 (.leaf 582986866607159168)
 (.leaf 583019705939510528))
 (.node 1 (.leaf 583333779063763968)
 (.leaf 583385152495179520)))))
 (.node 8 (.node 4 (.node 2 (.node 1 (.leaf 583483748848227840)
 (.leaf 583725111357990528))
 (.node 1 (.leaf 584750450246581632)
 (.leaf 584937858012639360)))
 (.node 2 (.node 1 (.leaf 584979290223876608)
 (.leaf 585119989553784576))
 (.node 1 (.leaf 585548824583536512)
 (.leaf 585739152062271488))))
 (.node 4 (.node 2 (.node 1 (.leaf 586279202271421952)
 (.leaf 586421012187181312))
 (.node 1 (.leaf 586811883602602368)
 (.leaf 586907036017594112)))
 (.node 2 (.node 1 (.leaf 587213874459803520)
 (.leaf 587221295429989888))
 (.node 1 (.leaf 587493417471648896)
 (.leaf 588223835575759872))))))))
 (.node 64 (.node 32 (.node 16 (.node 8 (.node 4 (.node 2 (.node 1 (.leaf 589133561034444800)
 (.leaf 589187562016309120))
 (.node 1 (.leaf 589248227307186432)
 (.leaf 589730215539685248)))
 (.node 2 (.node 1 (.leaf 589774909529920256)
 (.leaf 589927949666797696))
 (.node 1 (.leaf 590429790879905408)
 (.leaf 590673469999654656))))
 (.node 4 (.node 2 (.node 1 (.leaf 590725101159555584)
 (.leaf 590974788036102528))
 (.node 1 (.leaf 591349093237561984)
 (.leaf 591838837431455232)))
 (.node 2 (.node 1 (.leaf 593025453954683264)
 (.leaf 593585243532602368))
 (.node 1 (.leaf 593760059932021120)
 (.leaf 594029951494113664)))))
 (.node 8 (.node 4 (.node 2 (.node 1 (.leaf 595102593828281856)
 (.leaf 595696662195700096))
 (.node 1 (.leaf 596247818390701952)
 (.leaf 596491282895431936)))
 (.node 2 (.node 1 (.leaf 597110276672145536)
 (.leaf 597192847798971008))
 (.node 1 (.leaf 598000642196881408)
 (.leaf 598464705365889152))))
 (.node 4 (.node 2 (.node 1 (.leaf 598761663793141376)
 (.leaf 599058996820094592))
 (.node 1 (.leaf 599354802337534848)
 (.leaf 599529282605403648)))
 (.node 2 (.node 1 (.leaf 599584906958206336)
 (.leaf 600069809773555328))
 (.node 1 (.leaf 600715971878446592)
 (.leaf 603554175521797504))))))
 (.node 16 (.node 8 (.node 4 (.node 2 (.node 1 (.leaf 605048626862105088)
 (.leaf 606704855602387456))
 (.node 1 (.leaf 607225428083026304)
 (.leaf 608238988886959872)))
 (.node 2 (.node 1 (.leaf 608860551353273600)
 (.leaf 609265772056363520))
 (.node 1 (.leaf 610187890218161152)
 (.leaf 610744457913152640))))
 (.node 4 (.node 2 (.node 1 (.leaf 613269666113003648)
 (.leaf 616749248910819712))
 (.node 1 (.leaf 616786384255037824)
 (.leaf 618627756294876800)))
 (.node 2 (.node 1 (.leaf 619235701380974976)
 (.leaf 619329865066592384))
 (.node 1 (.leaf 619440992646954752)
 (.leaf 619517251067842560)))))
 (.node 8 (.node 4 (.node 2 (.node 1 (.leaf 621051774169064704)
 (.leaf 621331047637137408))
 (.node 1 (.leaf 621729815949197952)
 (.leaf 622209815296634880)))
 (.node 2 (.node 1 (.leaf 622512629054944512)
 (.leaf 622872046378161536))
 (.node 1 (.leaf 623195564210720384)
 (.leaf 624462125491859712))))
 (.node 4 (.node 2 (.node 1 (.leaf 626296282665081472)
 (.leaf 626827186305349888))
 (.node 1 (.leaf 627231814119238144)
 (.leaf 629119823895065728)))
 (.node 2 (.node 1 (.leaf 630795252425008256)
 (.leaf 631781466033464576))
 (.node 1 (.leaf 633069156058363648)
 (.leaf 633581587984686592)))))))
 (.node 32 (.node 16 (.node 8 (.node 4 (.node 2 (.node 1 (.leaf 635105518169534848)
 (.leaf 635375738097737728))
 (.node 1 (.leaf 635472777373882112)
 (.leaf 636051403661479424)))
 (.node 2 (.node 1 (.leaf 639278337876719872)
 (.leaf 639990725196871424))
 (.node 1 (.leaf 642103262434441600)
 (.leaf 644950956181515136))))
 (.node 4 (.node 2 (.node 1 (.leaf 646170996441107968)
 (.leaf 646404810122352384))
 (.node 1 (.leaf 658099479678539520)
 (.leaf 662715259896303232)))
 (.node 2 (.node 1 (.leaf 662889659725141760)
 (.leaf 663747838795485952))
 (.node 1 (.leaf 666335086712077184)
 (.leaf 673589578971109760)))))
 (.node 8 (.node 4 (.node 2 (.node 1 (.leaf 675559678266027520)
 (.leaf 676340912250518016))
 (.node 1 (.leaf 678572135423136128)
 (.leaf 683862401610223744)))
 (.node 2 (.node 1 (.leaf 687148301759013888)
 (.leaf 689095838886100224))
 (.node 1 (.leaf 693884413077959424)
 (.leaf 715725511761635328))))
 (.node 4 (.node 2 (.node 1 (.leaf 725430310900594944)
 (.leaf 730215505839337600))
 (.node 1 (.leaf 737865075015915520)
 (.leaf 740611849448775296)))
 (.node 2 (.node 1 (.leaf 741185991871937920)
 (.leaf 742650844740404992))
 (.node 1 (.leaf 769591765354948992)
 (.leaf 773002723429084544))))))
 (.node 16 (.node 8 (.node 4 (.node 2 (.node 1 (.leaf 788414306458686464)
 (.leaf 800442755207947648))
 (.node 1 (.leaf 801073536484256640)
 (.leaf 828747533096706432)))
 (.node 2 (.node 1 (.leaf 838158832308123008)
 (.leaf 849669898336137088))
 (.node 1 (.leaf 852433124350118912)
 (.leaf 869151539342410880))))
 (.node 4 (.node 2 (.node 1 (.leaf 873372788217784832)
 (.leaf 875516315318911488))
 (.node 1 (.leaf 900826696546274304)
 (.leaf 909098246893367936)))
 (.node 2 (.node 1 (.leaf 939605672182628352)
 (.leaf 944169126948329216))
 (.node 1 (.leaf 969301744696808576)
 (.leaf 1036272061428524160)))))
 (.node 8 (.node 4 (.node 2 (.node 1 (.leaf 1048322975442478336)
 (.leaf 1070096817087743616))
 (.node 1 (.leaf 1153134470821839360)
 (.leaf 1242950049084160256)))
 (.node 2 (.node 1 (.leaf 1288145197596384256)
 (.leaf 1347889043382839296))
 (.node 1 (.leaf 1406957545854383360)
 (.leaf 1414843132813223680))))
 (.node 2 (.node 1 (.leaf 1977082975585041408)
 (.leaf 4052399754742618624))
 (.leaf 6780393296316546048))))))))

/-- Values of the total available water content (mm), bits of the binary32 number. -/
def tawcData : DTree :=
 (.node 1024 (.node 512 (.node 256 (.node 128 (.node 64 (.node 32 (.node 16 (.node 8 (.node 4 (.node 2 (.node 1 (.leaf 1103101952)
 (.leaf 1103626240))
 (.node 1 (.leaf 1104150528)
 (.leaf 1104674816)))
 (.node 2 (.node 1 (.leaf 1105199104)
 (.leaf 1105723392))
 (.node 1 (.leaf 1106247680)
 (.leaf 1106771968))))
 (.node 4 (.node 2 (.node 1 (.leaf 1107296256)
 (.leaf 1107558400))
 (.node 1 (.leaf 1107820544)
 (.leaf 1108082688)))
 (.node 2 (.node 1 (.leaf 1108217430)
 (.leaf 1108344832))
 (.node 1 (.leaf 1108606976)
 (.leaf 1108869120)))))
 (.node 8 (.node 4 (.node 2 (.node 1 (.leaf 1109131264)
 (.leaf 1109393408))
 (.node 1 (.leaf 1109655552)
 (.leaf 1109917696)))
 (.node 2 (.node 1 (.leaf 1110179840)
 (.leaf 1110441984))
 (.node 1 (.leaf 1110704128)
 (.leaf 1110859658))))
 (.node 4 (.node 2 (.node 1 (.leaf 1110966272)
 (.leaf 1111228416))
 (.node 1 (.leaf 1111490560)
 (.leaf 1111752704)))
 (.node 2 (.node 1 (.leaf 1112014848)
 (.leaf 1112028794))
 (.node 1 (.leaf 1112181309)
 (.leaf 1112263885))))))
 (.node 16 (.node 8 (.node 4 (.node 2 (.node 1 (.leaf 1112276992)
 (.leaf 1112539136))
 (.node 1 (.leaf 1112635605)
 (.leaf 1112660378)))
 (.node 2 (.node 1 (.leaf 1112662344)
 (.leaf 1112664310))
 (.node 1 (.leaf 1112664965)
 (.leaf 1112666276))))
 (.node 4 (.node 2 (.node 1 (.leaf 1112670208)
 (.leaf 1112674140))
 (.node 1 (.leaf 1112675451)
 (.leaf 1112715035)))
 (.node 2 (.node 1 (.leaf 1112731812)
 (.leaf 1112732624))
 (.node 1 (.leaf 1112732939)
 (.leaf 1112774777)))))
 (.node 8 (.node 4 (.node 2 (.node 1 (.leaf 1112801280)
 (.leaf 1112815698))
 (.node 1 (.leaf 1112815855)
 (.leaf 1112836014)))
 (.node 2 (.node 1 (.leaf 1112881889)
 (.leaf 1112955945))
 (.node 1 (.leaf 1113028035)
 (.leaf 1113063424))))
 (.node 4 (.node 2 (.node 1 (.leaf 1113184010)
 (.leaf 1113325568))
 (.node 1 (.leaf 1113467571)
 (.leaf 1113540526)))
 (.node 2 (.node 1 (.leaf 1113587712)
 (.leaf 1113625068))
 (.node 1 (.leaf 1113727513)
 (.leaf 1113748485)))))))
 (.node 32 (.node 16 (.node 8 (.node 4 (.node 2 (.node 1 (.leaf 1113849856)
 (.leaf 1113911905))
 (.node 1 (.leaf 1113980902)
 (.leaf 1114015007)))
 (.node 2 (.node 1 (.leaf 1114068746)
 (.leaf 1114112000))
 (.node 1 (.leaf 1114215547)
 (.leaf 1114333066))))
 (.node 4 (.node 2 (.node 1 (.leaf 1114374144)
 (.leaf 1114492109))
 (.node 1 (.leaf 1114515518)
 (.leaf 1114515544)))
 (.node 2 (.node 1 (.leaf 1114522491)
 (.leaf 1114537198))
 (.node 1 (.leaf 1114537224)
 (.leaf 1114537696)))))
 (.node 8 (.node 4 (.node 2 (.node 1 (.leaf 1114537748)
 (.leaf 1114539190))
 (.node 1 (.leaf 1114539216)
 (.leaf 1114540160)))
 (.node 2 (.node 1 (.leaf 1114546897)
 (.leaf 1114550646))
 (.node 1 (.leaf 1114550698)
 (.leaf 1114550986))))
 (.node 4 (.node 2 (.node 1 (.leaf 1114555967)
 (.leaf 1114557566))
 (.node 1 (.leaf 1114558589)
 (.leaf 1114562861)))
 (.node 2 (.node 1 (.leaf 1114566977)
 (.leaf 1114570595))
 (.node 1 (.leaf 1114571879)
 (.leaf 1114579979))))))
 (.node 16 (.node 8 (.node 4 (.node 2 (.node 1 (.leaf 1114582313)
 (.leaf 1114586454))
 (.node 1 (.leaf 1114588525)
 (.leaf 1114593663)))
 (.node 2 (.node 1 (.leaf 1114636288)
 (.leaf 1114658125))
 (.node 1 (.leaf 1114658308)
 (.leaf 1114853815))))
 (.node 4 (.node 2 (.node 1 (.leaf 1114898432)
 (.leaf 1114947191))
 (.node 1 (.leaf 1115032125)
 (.leaf 1115043476)))
 (.node 2 (.node 1 (.leaf 1115044577)
 (.leaf 1115051786))
 (.node 1 (.leaf 1115053962)
 (.leaf 1115074593)))))
 (.node 8 (.node 4 (.node 2 (.node 1 (.leaf 1115078787)
 (.leaf 1115160576))
 (.node 1 (.leaf 1115163853)
 (.leaf 1115257595)))
 (.node 2 (.node 1 (.leaf 1115422720)
 (.leaf 1115444976))
 (.node 1 (.leaf 1115450245)
 (.leaf 1115478426))))
 (.node 4 (.node 2 (.node 1 (.leaf 1115500760)
 (.leaf 1115505741))
 (.node 1 (.leaf 1115520369)
 (.leaf 1115555103)))
 (.node 2 (.node 1 (.leaf 1115585695)
 (.leaf 1115586560))
 (.node 1 (.leaf 1115594870)
 (.leaf 1115598802))))))))
 (.node 64 (.node 32 (.node 16 (.node 8 (.node 4 (.node 2 (.node 1 (.leaf 1115599222)
 (.leaf 1115608397))
 (.node 1 (.leaf 1115611909)
 (.leaf 1115619328)))
 (.node 2 (.node 1 (.leaf 1115620639)
 (.leaf 1115629289))
 (.node 1 (.leaf 1115684864)
 (.leaf 1115713136))))
 (.node 4 (.node 2 (.node 1 (.leaf 1115815936)
 (.leaf 1115837799))
 (.node 1 (.leaf 1115848704)
 (.leaf 1115861811)))
 (.node 2 (.node 1 (.leaf 1115862742)
 (.leaf 1115873870))
 (.node 1 (.leaf 1115892744)
 (.leaf 1115944649)))))
 (.node 8 (.node 4 (.node 2 (.node 1 (.leaf 1115947008)
 (.leaf 1115958804))
 (.node 1 (.leaf 1115985242)
 (.leaf 1115991572)))
 (.node 2 (.node 1 (.leaf 1116078080)
 (.leaf 1116111687))
 (.node 1 (.leaf 1116117139)
 (.leaf 1116123955))))
 (.node 4 (.node 2 (.node 1 (.leaf 1116133130)
 (.leaf 1116137062))
 (.node 1 (.leaf 1116176384)
 (.leaf 1116188836)))
 (.node 2 (.node 1 (.leaf 1116195062)
 (.leaf 1116209152))
 (.node 1 (.leaf 1116214827)
 (.leaf 1116219205))))))
 (.node 16 (.node 8 (.node 4 (.node 2 (.node 1 (.leaf 1116220162)
 (.leaf 1116254372))
 (.node 1 (.leaf 1116299854)
 (.leaf 1116301689)))
 (.node 2 (.node 1 (.leaf 1116340224)
 (.leaf 1116366438))
 (.node 1 (.leaf 1116375928)
 (.leaf 1116390687))))
 (.node 4 (.node 2 (.node 1 (.leaf 1116425748)
 (.leaf 1116466708))
 (.node 1 (.leaf 1116471296)
 (.leaf 1116477587)))
 (.node 2 (.node 1 (.leaf 1116485255)
 (.leaf 1116545679))
 (.node 1 (.leaf 1116567857)
 (.leaf 1116578211)))))
 (.node 8 (.node 4 (.node 2 (.node 1 (.leaf 1116602368)
 (.leaf 1116625030))
 (.node 1 (.leaf 1116627796)
 (.leaf 1116628582)))
 (.node 2 (.node 1 (.leaf 1116641690)
 (.leaf 1116654797))
 (.node 1 (.leaf 1116699256)
 (.leaf 1116733440))))
 (.node 4 (.node 2 (.node 1 (.leaf 1116750152)
 (.leaf 1116816264))
 (.node 1 (.leaf 1116864512)
 (.leaf 1116878602)))
 (.node 2 (.node 1 (.leaf 1116883845)
 (.leaf 1116898591))
 (.node 1 (.leaf 1116947087)
 (.leaf 1116992307)))))))
 (.node 32 (.node 16 (.node 8 (.node 4 (.node 2 (.node 1 (.leaf 1116995584)
 (.leaf 1117005637))
 (.node 1 (.leaf 1117081108)
 (.leaf 1117103063)))
 (.node 2 (.node 1 (.leaf 1117108961)
 (.leaf 1117126223))
 (.node 1 (.leaf 1117126656)
 (.leaf 1117130025))))
 (.node 4 (.node 2 (.node 1 (.leaf 1117130234)
 (.leaf 1117164143))
 (.node 1 (.leaf 1117168927)
 (.leaf 1117184328)))
 (.node 2 (.node 1 (.leaf 1117189387)
 (.leaf 1117218734))
 (.node 1 (.leaf 1117239706)
 (.leaf 1117257728)))))
 (.node 8 (.node 4 (.node 2 (.node 1 (.leaf 1117290496)
 (.leaf 1117299671))
 (.node 1 (.leaf 1117301598)
 (.leaf 1117326541)))
 (.node 2 (.node 1 (.leaf 1117366950)
 (.leaf 1117368484))
 (.node 1 (.leaf 1117373071)
 (.leaf 1117388800))))
 (.node 4 (.node 2 (.node 1 (.leaf 1117416980)
 (.leaf 1117443850))
 (.node 1 (.leaf 1117452802)
 (.leaf 1117456957)))
 (.node 2 (.node 1 (.leaf 1117480118)
 (.leaf 1117519872))
 (.node 1 (.leaf 1117547830)
 (.leaf 1117564017))))))
 (.node 16 (.node 8 (.node 4 (.node 2 (.node 1 (.leaf 1117579733)
 (.leaf 1117615122))
 (.node 1 (.leaf 1117650944)
 (.leaf 1117714186)))
 (.node 2 (.node 1 (.leaf 1117717463)
 (.leaf 1117734830))
 (.node 1 (.leaf 1117746954)
 (.leaf 1117764098))))
 (.node 4 (.node 2 (.node 1 (.leaf 1117782016)
 (.leaf 1117784021))
 (.node 1 (.leaf 1117799055)
 (.leaf 1117803643)))
 (.node 2 (.node 1 (.leaf 1117807798)
 (.leaf 1117834222))
 (.node 1 (.leaf 1117843843)
 (.leaf 1117844498)))))
 (.node 8 (.node 4 (.node 2 (.node 1 (.leaf 1117845363)
 (.leaf 1117845586))
 (.node 1 (.leaf 1117847028)
 (.leaf 1117872023)))
 (.node 2 (.node 1 (.leaf 1117886874)
 (.leaf 1117899103))
 (.node 1 (.leaf 1117901947)
 (.leaf 1117913088))))
 (.node 4 (.node 2 (.node 1 (.leaf 1117918331)
 (.leaf 1117954245))
 (.node 1 (.leaf 1117974692)
 (.leaf 1117983539)))
 (.node 2 (.node 1 (.leaf 1117987471)
 (.leaf 1117997852))
 (.node 1 (.leaf 1118028431)
 (.leaf 1118041106)))))))))
 (.node 128 (.node 64 (.node 32 (.node 16 (.node 8 (.node 4 (.node 2 (.node 1 (.leaf 1118042417)
 (.leaf 1118044160))
 (.node 1 (.leaf 1118060767)
 (.leaf 1118064594)))
 (.node 2 (.node 1 (.leaf 1118074307)
 (.leaf 1118077583))
 (.node 1 (.leaf 1118078383)
 (.leaf 1118084465))))
 (.node 4 (.node 2 (.node 1 (.leaf 1118094846)
 (.leaf 1118109696))
 (.node 1 (.leaf 1118113104)
 (.leaf 1118126735)))
 (.node 2 (.node 1 (.leaf 1118127614)
 (.leaf 1118137549))
 (.node 1 (.leaf 1118144705)
 (.leaf 1118155571)))))
 (.node 8 (.node 4 (.node 2 (.node 1 (.leaf 1118172178)
 (.leaf 1118175232))
 (.node 1 (.leaf 1118210359)
 (.leaf 1118216520)))
 (.node 2 (.node 1 (.leaf 1118222418)
 (.leaf 1118224817))
 (.node 1 (.leaf 1118236836)
 (.leaf 1118256169))))
 (.node 4 (.node 2 (.node 1 (.leaf 1118262723)
 (.leaf 1118269984))
 (.node 1 (.leaf 1118272225)
 (.leaf 1118306304)))
 (.node 2 (.node 1 (.leaf 1118306488)
 (.leaf 1118313513))
 (.node 1 (.leaf 1118325309)
 (.leaf 1118339858))))))
 (.node 16 (.node 8 (.node 4 (.node 2 (.node 1 (.leaf 1118377083)
 (.leaf 1118377240))
 (.node 1 (.leaf 1118389862)
 (.leaf 1118395433)))
 (.node 2 (.node 1 (.leaf 1118401606)
 (.leaf 1118437376))
 (.node 1 (.leaf 1118452384)
 (.leaf 1118462948))))
 (.node 4 (.node 2 (.node 1 (.leaf 1118474954)
 (.leaf 1118495926))
 (.node 1 (.leaf 1118497669)
 (.leaf 1118505966)))
 (.node 2 (.node 1 (.leaf 1118530870)
 (.leaf 1118561409))
 (.node 1 (.leaf 1118561567)
 (.leaf 1118563729)))))
 (.node 8 (.node 4 (.node 2 (.node 1 (.leaf 1118564516)
 (.leaf 1118567570))
 (.node 1 (.leaf 1118567924)
 (.leaf 1118568448)))
 (.node 2 (.node 1 (.leaf 1118571253)
 (.leaf 1118573036))
 (.node 1 (.leaf 1118573953)
 (.leaf 1118590730))))
 (.node 4 (.node 2 (.node 1 (.leaf 1118591163)
 (.leaf 1118595973))
 (.node 1 (.leaf 1118603405)
 (.leaf 1118612357)))
 (.node 2 (.node 1 (.leaf 1118633984)
 (.leaf 1118635033))
 (.node 1 (.leaf 1118663148)
 (.leaf 1118669373)))))))
 (.node 32 (.node 16 (.node 8 (.node 4 (.node 2 (.node 1 (.leaf 1118694605)
 (.leaf 1118698642))
 (.node 1 (.leaf 1118699520)
 (.leaf 1118705811)))
 (.node 2 (.node 1 (.leaf 1118718748)
 (.leaf 1118723113))
 (.node 1 (.leaf 1118730322)
 (.leaf 1118741791))))
 (.node 4 (.node 2 (.node 1 (.leaf 1118757847)
 (.leaf 1118785543))
 (.node 1 (.leaf 1118793564)
 (.leaf 1118797038)))
 (.node 2 (.node 1 (.leaf 1118805728)
 (.leaf 1118809293))
 (.node 1 (.leaf 1118830592)
 (.leaf 1118834852)))))
 (.node 8 (.node 4 (.node 2 (.node 1 (.leaf 1118888264)
 (.leaf 1118913167))
 (.node 1 (.leaf 1118930639)
 (.leaf 1118931517)))
 (.node 2 (.node 1 (.leaf 1118948557)
 (.leaf 1118961664))
 (.node 1 (.leaf 1118962503)
 (.leaf 1119001313))))
 (.node 4 (.node 2 (.node 1 (.leaf 1119003607)
 (.leaf 1119009833))
 (.node 1 (.leaf 1119018025)
 (.leaf 1119022285)))
 (.node 2 (.node 1 (.leaf 1119086182)
 (.leaf 1119092736))
 (.node 1 (.leaf 1119119278)
 (.leaf 1119121900))))))
 (.node 16 (.node 8 (.node 4 (.node 2 (.node 1 (.leaf 1119123866)
 (.leaf 1119133801))
 (.node 1 (.leaf 1119151718)
 (.leaf 1119166569)))
 (.node 2 (.node 1 (.leaf 1119202653)
 (.leaf 1119223808))
 (.node 1 (.leaf 1119242407)
 (.leaf 1119245212))))
 (.node 4 (.node 2 (.node 1 (.leaf 1119278334)
 (.leaf 1119289344))
 (.node 1 (.leaf 1119297864)
 (.leaf 1119300957)))
 (.node 2 (.node 1 (.leaf 1119347278)
 (.leaf 1119349205))
 (.node 1 (.leaf 1119354880)
 (.leaf 1119355929)))))
 (.node 8 (.node 4 (.node 2 (.node 1 (.leaf 1119357501)
 (.leaf 1119360778))
 (.node 1 (.leaf 1119363727)
 (.leaf 1119373230)))
 (.node 2 (.node 1 (.leaf 1119376717)
 (.leaf 1119386862))
 (.node 1 (.leaf 1119394175)
 (.leaf 1119417139))))
 (.node 4 (.node 2 (.node 1 (.leaf 1119461048)
 (.leaf 1119463670))
 (.node 1 (.leaf 1119480971)
 (.leaf 1119481142)))
 (.node 2 (.node 1 (.leaf 1119481233)
 (.leaf 1119483763))
 (.node 1 (.leaf 1119484641)
 (.leaf 1119484969))))))))
 (.node 64 (.node 32 (.node 16 (.node 8 (.node 4 (.node 2 (.node 1 (.leaf 1119485952)
 (.leaf 1119490867))
 (.node 1 (.leaf 1119499583)
 (.leaf 1119510200)))
 (.node 2 (.node 1 (.leaf 1119540675)
 (.leaf 1119543296))
 (.node 1 (.leaf 1119549194)
 (.leaf 1119553454))))
 (.node 4 (.node 2 (.node 1 (.leaf 1119556731)
 (.leaf 1119566719))
 (.node 1 (.leaf 1119588621)
 (.leaf 1119596708)))
 (.node 2 (.node 1 (.leaf 1119602606)
 (.leaf 1119603261))
 (.node 1 (.leaf 1119604572)
 (.leaf 1119606014)))))
 (.node 8 (.node 4 (.node 2 (.node 1 (.leaf 1119617024)
 (.leaf 1119632097))
 (.node 1 (.leaf 1119638847)
 (.leaf 1119641049)))
 (.node 2 (.node 1 (.leaf 1119642583)
 (.leaf 1119644549))
 (.node 1 (.leaf 1119652413)
 (.leaf 1119657329))))
 (.node 4 (.node 2 (.node 1 (.leaf 1119672507)
 (.leaf 1119702221))
 (.node 1 (.leaf 1119724503)
 (.leaf 1119739799)))
 (.node 2 (.node 1 (.leaf 1119744164)
 (.leaf 1119748096))
 (.node 1 (.leaf 1119770706)
 (.leaf 1119771165))))))
 (.node 16 (.node 8 (.node 4 (.node 2 (.node 1 (.leaf 1119772672)
 (.leaf 1119774966))
 (.node 1 (.leaf 1119784272)
 (.leaf 1119788728)))
 (.node 2 (.node 1 (.leaf 1119798690)
 (.leaf 1119854920))
 (.node 1 (.leaf 1119858446)
 (.leaf 1119879168))))
 (.node 4 (.node 2 (.node 1 (.leaf 1119893586)
 (.leaf 1119901123))
 (.node 1 (.leaf 1119918490)
 (.leaf 1119920128)))
 (.node 2 (.node 1 (.leaf 1119930614)
 (.leaf 1119950379))
 (.node 1 (.leaf 1119962871)
 (.leaf 1120010240)))))
 (.node 8 (.node 4 (.node 2 (.node 1 (.leaf 1120053127)
 (.leaf 1120075776))
 (.node 1 (.leaf 1120087572)
 (.leaf 1120095004)))
 (.node 2 (.node 1 (.leaf 1120113630)
 (.leaf 1120114442))
 (.node 1 (.leaf 1120117116)
 (.leaf 1120117719))))
 (.node 4 (.node 2 (.node 1 (.leaf 1120138363)
 (.leaf 1120140657))
 (.node 1 (.leaf 1120141312)
 (.leaf 1120144589)))
 (.node 2 (.node 1 (.leaf 1120157041)
 (.leaf 1120192994))
 (.node 1 (.leaf 1120199167)
 (.leaf 1120216023)))))))
 (.node 32 (.node 16 (.node 8 (.node 4 (.node 2 (.node 1 (.leaf 1120257088)
 (.leaf 1120271073))
 (.node 1 (.leaf 1120272384)
 (.leaf 1120275005)))
 (.node 2 (.node 1 (.leaf 1120293356)
 (.leaf 1120294234))
 (.node 1 (.leaf 1120312230)
 (.leaf 1120322585))))
 (.node 4 (.node 2 (.node 1 (.leaf 1120323935)
 (.leaf 1120325468))
 (.node 1 (.leaf 1120330383)
 (.leaf 1120334420)))
 (.node 2 (.node 1 (.leaf 1120336609)
 (.leaf 1120343163))
 (.node 1 (.leaf 1120352338)
 (.leaf 1120359875)))))
 (.node 8 (.node 4 (.node 2 (.node 1 (.leaf 1120375551)
 (.leaf 1120380846))
 (.node 1 (.leaf 1120384673)
 (.leaf 1120403456)))
 (.node 2 (.node 1 (.leaf 1120419185)
 (.leaf 1120421544))
 (.node 1 (.leaf 1120444088)
 (.leaf 1120475939))))
 (.node 4 (.node 2 (.node 1 (.leaf 1120483148)
 (.leaf 1120490881))
 (.node 1 (.leaf 1120491667)
 (.leaf 1120516964)))
 (.node 2 (.node 1 (.leaf 1120531513)
 (.leaf 1120534528))
 (.node 1 (.leaf 1120547897)
 (.leaf 1120559825))))))
 (.node 16 (.node 8 (.node 4 (.node 2 (.node 1 (.leaf 1120564019)
 (.leaf 1120574505))
 (.node 1 (.leaf 1120585646)
 (.leaf 1120598491)))
 (.node 2 (.node 1 (.leaf 1120608846)
 (.leaf 1120637026))
 (.node 1 (.leaf 1120665600)
 (.leaf 1120669532))))
 (.node 4 (.node 2 (.node 1 (.leaf 1120673071)
 (.leaf 1120678052))
 (.node 1 (.leaf 1120678445)
 (.leaf 1120678707)))
 (.node 2 (.node 1 (.leaf 1120687227)
 (.leaf 1120689193))
 (.node 1 (.leaf 1120690766)
 (.leaf 1120693125)))))
 (.node 8 (.node 4 (.node 2 (.node 1 (.leaf 1120704528)
 (.leaf 1120707543))
 (.node 1 (.leaf 1120717373)
 (.leaf 1120757350)))
 (.node 2 (.node 1 (.leaf 1120759316)
 (.leaf 1120772686))
 (.node 1 (.leaf 1120773079)
 (.leaf 1120775700))))
 (.node 4 (.node 2 (.node 1 (.leaf 1120779108)
 (.leaf 1120796672))
 (.node 1 (.leaf 1120827736)
 (.leaf 1120835076)))
 (.node 2 (.node 1 (.leaf 1120845431)
 (.leaf 1120852378))
 (.node 1 (.leaf 1120853426)
 (.leaf 1120862208))))))))))
 (.node 256 (.node 128 (.node 64 (.node 32 (.node 16 (.node 8 (.node 4 (.node 2 (.node 1 (.leaf 1120871776)
 (.leaf 1120894583))
 (.node 1 (.leaf 1120896549)
 (.leaf 1120906379)))
 (.node 2 (.node 1 (.leaf 1120925123)
 (.leaf 1120927744))
 (.node 1 (.leaf 1120939540)
 (.leaf 1120943997))))
 (.node 4 (.node 2 (.node 1 (.leaf 1120951992)
 (.leaf 1120955269))
 (.node 1 (.leaf 1120970605)
 (.leaf 1120984367)))
 (.node 2 (.node 1 (.leaf 1121005732)
 (.leaf 1121025393))
 (.node 1 (.leaf 1121042039)
 (.leaf 1121043350)))))
 (.node 8 (.node 4 (.node 2 (.node 1 (.leaf 1121058816)
 (.leaf 1121085030))
 (.node 1 (.leaf 1121092895)
 (.leaf 1121093943)))
 (.node 2 (.node 1 (.leaf 1121107575)
 (.leaf 1121123434))
 (.node 1 (.leaf 1121125663)
 (.leaf 1121127760))))
 (.node 4 (.node 2 (.node 1 (.leaf 1121151615)
 (.leaf 1121171538))
 (.node 1 (.leaf 1121172849)
 (.leaf 1121174159)))
 (.node 2 (.node 1 (.leaf 1121189888)
 (.leaf 1121193427))
 (.node 1 (.leaf 1121194476)
 (.leaf 1121196442))))))
 (.node 16 (.node 8 (.node 4 (.node 2 (.node 1 (.leaf 1121223967)
 (.leaf 1121243628))
 (.node 1 (.leaf 1121252671)
 (.leaf 1121258045)))
 (.node 2 (.node 1 (.leaf 1121303658)
 (.leaf 1121320960))
 (.node 1 (.leaf 1121348485)
 (.leaf 1121377321))))
 (.node 4 (.node 2 (.node 1 (.leaf 1121396982)
 (.leaf 1121400259))
 (.node 1 (.leaf 1121434468)
 (.leaf 1121438663)))
 (.node 2 (.node 1 (.leaf 1121441546)
 (.leaf 1121443512))
 (.node 1 (.leaf 1121452032)
 (.leaf 1121465401)))))
 (.node 8 (.node 4 (.node 2 (.node 1 (.leaf 1121468416)
 (.leaf 1121488208))
 (.node 1 (.leaf 1121499218)
 (.leaf 1121514291)))
 (.node 2 (.node 1 (.leaf 1121516913)
 (.leaf 1121554530))
 (.node 1 (.leaf 1121570390)
 (.leaf 1121583104))))
 (.node 4 (.node 2 (.node 1 (.leaf 1121587429)
 (.leaf 1121625965))
 (.node 1 (.leaf 1121643135)
 (.leaf 1121643397)))
 (.node 2 (.node 1 (.leaf 1121667645)
 (.leaf 1121669874))
 (.node 1 (.leaf 1121689272)
 (.leaf 1121696481)))))))
 (.node 32 (.node 16 (.node 8 (.node 4 (.node 2 (.node 1 (.leaf 1121714176)
 (.leaf 1121724269))
 (.node 1 (.leaf 1121740390)
 (.leaf 1121770144)))
 (.node 2 (.node 1 (.leaf 1121787576)
 (.leaf 1121804616))
 (.node 1 (.leaf 1121817723)
 (.leaf 1121835418))))
 (.node 4 (.node 2 (.node 1 (.leaf 1121841316)
 (.leaf 1121845248))
 (.node 1 (.leaf 1121845903)
 (.leaf 1121854423)))
 (.node 2 (.node 1 (.leaf 1121873166)
 (.leaf 1121900167))
 (.node 1 (.leaf 1121932149)
 (.leaf 1121946829)))))
 (.node 8 (.node 4 (.node 2 (.node 1 (.leaf 1121976320)
 (.leaf 1121976713))
 (.node 1 (.leaf 1121977631)
 (.leaf 1121979335)))
 (.node 2 (.node 1 (.leaf 1121992704)
 (.leaf 1121994670))
 (.node 1 (.leaf 1122065449)
 (.leaf 1122084061))))
 (.node 4 (.node 2 (.node 1 (.leaf 1122089435)
 (.leaf 1122107392))
 (.node 1 (.leaf 1122142781)
 (.leaf 1122191278)))
 (.node 2 (.node 1 (.leaf 1122214871)
 (.leaf 1122238464))
 (.node 1 (.leaf 1122270839)
 (.leaf 1122306884))))))
 (.node 16 (.node 8 (.node 4 (.node 2 (.node 1 (.leaf 1122327593)
 (.leaf 1122330477))
 (.node 1 (.leaf 1122338341)
 (.leaf 1122338996)))
 (.node 2 (.node 1 (.leaf 1122359181)
 (.leaf 1122369536))
 (.node 1 (.leaf 1122382643)
 (.leaf 1122408858))))
 (.node 4 (.node 2 (.node 1 (.leaf 1122494054)
 (.leaf 1122500608))
 (.node 1 (.leaf 1122524201)
 (.leaf 1122586853)))
 (.node 2 (.node 1 (.leaf 1122627748)
 (.leaf 1122631680))
 (.node 1 (.leaf 1122685420)
 (.leaf 1122762752)))))
 (.node 8 (.node 4 (.node 2 (.node 1 (.leaf 1122775073)
 (.leaf 1122807972))
 (.node 1 (.leaf 1122888581)
 (.leaf 1122893824)))
 (.node 2 (.node 1 (.leaf 1122941796)
 (.leaf 1122942321))
 (.node 1 (.leaf 1122952544)
 (.leaf 1122971681))))
 (.node 4 (.node 2 (.node 1 (.leaf 1122983870)
 (.leaf 1123013362))
 (.node 1 (.leaf 1123024896)
 (.leaf 1123025814)))
 (.node 2 (.node 1 (.leaf 1123043901)
 (.leaf 1123122676))
 (.node 1 (.leaf 1123150987)
 (.leaf 1123155968))))))))
 (.node 64 (.node 32 (.node 16 (.node 8 (.node 4 (.node 2 (.node 1 (.leaf 1123176546)
 (.leaf 1123193717))
 (.node 1 (.leaf 1123226747)
 (.leaf 1123287040)))
 (.node 2 (.node 1 (.leaf 1123306963)
 (.leaf 1123348251))
 (.node 1 (.leaf 1123363062)
 (.leaf 1123380101))))
 (.node 4 (.node 2 (.node 1 (.leaf 1123382723)
 (.leaf 1123386655))
 (.node 1 (.leaf 1123387965)
 (.leaf 1123390587)))
 (.node 2 (.node 1 (.leaf 1123399762)
 (.leaf 1123400417))
 (.node 1 (.leaf 1123403170)
 (.leaf 1123408019)))))
 (.node 8 (.node 4 (.node 2 (.node 1 (.leaf 1123418112)
 (.leaf 1123422700))
 (.node 1 (.leaf 1123451535)
 (.leaf 1123462676)))
 (.node 2 (.node 1 (.leaf 1123501605)
 (.leaf 1123510125))
 (.node 1 (.leaf 1123511304)
 (.leaf 1123519037))))
 (.node 4 (.node 2 (.node 1 (.leaf 1123549184)
 (.leaf 1123604890))
 (.node 1 (.leaf 1123633070)
 (.leaf 1123650634)))
 (.node 2 (.node 1 (.leaf 1123654042)
 (.leaf 1123680256))
 (.node 1 (.leaf 1123682091)
 (.leaf 1123706077))))))
 (.node 16 (.node 8 (.node 4 (.node 2 (.node 1 (.leaf 1123727442)
 (.leaf 1123757326))
 (.node 1 (.leaf 1123757982)
 (.leaf 1123763225)))
 (.node 2 (.node 1 (.leaf 1123776463)
 (.leaf 1123779740))
 (.node 1 (.leaf 1123782492)
 (.leaf 1123782754))))
 (.node 4 (.node 2 (.node 1 (.leaf 1123784458)
 (.leaf 1123806085))
 (.node 1 (.leaf 1123811328)
 (.leaf 1123874243)))
 (.node 2 (.node 1 (.leaf 1123890364)
 (.leaf 1123934536))
 (.node 1 (.leaf 1123942400)
 (.leaf 1123997450)))))
 (.node 8 (.node 4 (.node 2 (.node 1 (.leaf 1124038083)
 (.leaf 1124073472))
 (.node 1 (.leaf 1124093788)
 (.leaf 1124100997)))
 (.node 2 (.node 1 (.leaf 1124110828)
 (.leaf 1124116922))
 (.node 1 (.leaf 1124119020)
 (.leaf 1124125245))))
 (.node 4 (.node 2 (.node 1 (.leaf 1124135076)
 (.leaf 1124138549))
 (.node 1 (.leaf 1124139008)
 (.leaf 1124141171)))
 (.node 2 (.node 1 (.leaf 1124177019)
 (.leaf 1124183900))
 (.node 1 (.leaf 1124194189)
 (.leaf 1124204085)))))))
 (.node 32 (.node 16 (.node 8 (.node 4 (.node 2 (.node 1 (.leaf 1124204544)
 (.leaf 1124205986))
 (.node 1 (.leaf 1124246028)
 (.leaf 1124256317)))
 (.node 2 (.node 1 (.leaf 1124267786)
 (.leaf 1124270080))
 (.node 1 (.leaf 1124290396)
 (.leaf 1124309271))))
 (.node 4 (.node 2 (.node 1 (.leaf 1124310057)
 (.leaf 1124319035))
 (.node 1 (.leaf 1124335616)
 (.leaf 1124335944)))
 (.node 2 (.node 1 (.leaf 1124348068)
 (.leaf 1124355146))
 (.node 1 (.leaf 1124357243)
 (.leaf 1124401152)))))
 (.node 8 (.node 4 (.node 2 (.node 1 (.leaf 1124420485)
 (.leaf 1124436804))
 (.node 1 (.leaf 1124442243)
 (.leaf 1124443816)))
 (.node 2 (.node 1 (.leaf 1124449649)
 (.leaf 1124451942))
 (.node 1 (.leaf 1124459807)
 (.leaf 1124461445))))
 (.node 4 (.node 2 (.node 1 (.leaf 1124462690)
 (.leaf 1124463149))
 (.node 1 (.leaf 1124463870)
 (.leaf 1124464132)))
 (.node 2 (.node 1 (.leaf 1124464263)
 (.leaf 1124464525))
 (.node 1 (.leaf 1124464722)
 (.leaf 1124464853))))))
 (.node 16 (.node 8 (.node 4 (.node 2 (.node 1 (.leaf 1124464984)
 (.leaf 1124465181))
 (.node 1 (.leaf 1124465967)
 (.leaf 1124466033)))
 (.node 2 (.node 1 (.leaf 1124466164)
 (.leaf 1124466229))
 (.node 1 (.leaf 1124466688)
 (.leaf 1124469506))))
 (.node 4 (.node 2 (.node 1 (.leaf 1124470620)
 (.leaf 1124470882))
 (.node 1 (.leaf 1124472455)
 (.leaf 1124473831)))
 (.node 2 (.node 1 (.leaf 1124474421)
 (.leaf 1124474552))
 (.node 1 (.leaf 1124474946)
 (.leaf 1124477567)))))
 (.node 8 (.node 4 (.node 2 (.node 1 (.leaf 1124477698)
 (.leaf 1124477829))
 (.node 1 (.leaf 1124480647)
 (.leaf 1124481761)))
 (.node 2 (.node 1 (.leaf 1124481892)
 (.leaf 1124482417))
 (.node 1 (.leaf 1124488970)
 (.leaf 1124491264))))
 (.node 4 (.node 2 (.node 1 (.leaf 1124497490)
 (.leaf 1124498473))
 (.node 1 (.leaf 1124498670)
 (.leaf 1124504895)))
 (.node 2 (.node 1 (.leaf 1124507451)
 (.leaf 1124528030))
 (.node 1 (.leaf 1124532224)
 (.leaf 1124542513)))))))))
 (.node 128 (.node 64 (.node 32 (.node 16 (.node 8 (.node 4 (.node 2 (.node 1 (.leaf 1124559618)
 (.leaf 1124565975))
 (.node 1 (.leaf 1124596646)
 (.leaf 1124597760)))
 (.node 2 (.node 1 (.leaf 1124599726)
 (.leaf 1124609360))
 (.node 1 (.leaf 1124612178)
 (.leaf 1124634264))))
 (.node 4 (.node 2 (.node 1 (.leaf 1124659692)
 (.leaf 1124663296))
 (.node 1 (.leaf 1124709171)
 (.leaf 1124728832)))
 (.node 2 (.node 1 (.leaf 1124760289)
 (.leaf 1124787618))
 (.node 1 (.leaf 1124794368)
 (.leaf 1124800791)))))
 (.node 8 (.node 4 (.node 2 (.node 1 (.leaf 1124810752)
 (.leaf 1124837294))
 (.node 1 (.leaf 1124837622)
 (.leaf 1124847780)))
 (.node 2 (.node 1 (.leaf 1124849091)
 (.leaf 1124851909))
 (.node 1 (.leaf 1124859904)
 (.leaf 1124902306))))
 (.node 4 (.node 2 (.node 1 (.leaf 1124902502)
 (.leaf 1124925440))
 (.node 1 (.leaf 1124928193)
 (.leaf 1124951458)))
 (.node 2 (.node 1 (.leaf 1124954276)
 (.leaf 1124962796))
 (.node 1 (.leaf 1124967383)
 (.leaf 1124990976))))))
 (.node 16 (.node 8 (.node 4 (.node 2 (.node 1 (.leaf 1125000151)
 (.leaf 1125017846))
 (.node 1 (.leaf 1125049958)
 (.leaf 1125056512)))
 (.node 2 (.node 1 (.leaf 1125083382)
 (.leaf 1125088756))
 (.node 1 (.leaf 1125098848)
 (.leaf 1125122048))))
 (.node 4 (.node 2 (.node 1 (.leaf 1125135286)
 (.leaf 1125140398))
 (.node 1 (.leaf 1125162877)
 (.leaf 1125163991)))
 (.node 2 (.node 1 (.leaf 1125173166)
 (.leaf 1125179064))
 (.node 1 (.leaf 1125179916)
 (.leaf 1125181882)))))
 (.node 8 (.node 4 (.node 2 (.node 1 (.leaf 1125183324)
 (.leaf 1125183980))
 (.node 1 (.leaf 1125185159)
 (.leaf 1125187584)))
 (.node 2 (.node 1 (.leaf 1125188043)
 (.leaf 1125192172))
 (.node 1 (.leaf 1125196104)
 (.leaf 1125204623))))
 (.node 4 (.node 2 (.node 1 (.leaf 1125253120)
 (.leaf 1125318656))
 (.node 1 (.leaf 1125345985)
 (.leaf 1125373051)))
 (.node 2 (.node 1 (.leaf 1125384192)
 (.leaf 1125387993))
 (.node 1 (.leaf 1125441995)
 (.leaf 1125449466)))))))
 (.node 32 (.node 16 (.node 8 (.node 4 (.node 2 (.node 1 (.leaf 1125449728)
 (.leaf 1125464343))
 (.node 1 (.leaf 1125494948)
 (.leaf 1125515264)))
 (.node 2 (.node 1 (.leaf 1125580800)
 (.leaf 1125646336))
 (.node 1 (.leaf 1125679104)
 (.leaf 1125711872))))
 (.node 4 (.node 2 (.node 1 (.leaf 1125712658)
 (.leaf 1125739397))
 (.node 1 (.leaf 1125777408)
 (.leaf 1125787763)))
 (.node 2 (.node 1 (.leaf 1125842944)
 (.leaf 1125908480))
 (.node 1 (.leaf 1125974016)
 (.leaf 1125988893)))))
 (.node 8 (.node 4 (.node 2 (.node 1 (.leaf 1126039552)
 (.leaf 1126105088))
 (.node 1 (.leaf 1126119178)
 (.leaf 1126141329)))
 (.node 2 (.node 1 (.leaf 1126169641)
 (.leaf 1126170624))
 (.node 1 (.leaf 1126181765)
 (.leaf 1126205358))))
 (.node 4 (.node 2 (.node 1 (.leaf 1126236160)
 (.leaf 1126284460))
 (.node 1 (.leaf 1126301696)
 (.leaf 1126302810)))
 (.node 2 (.node 1 (.leaf 1126303662)
 (.leaf 1126342459))
 (.node 1 (.leaf 1126367232)
 (.leaf 1126387548))))))
 (.node 16 (.node 8 (.node 4 (.node 2 (.node 1 (.leaf 1126394757)
 (.leaf 1126432768))
 (.node 1 (.leaf 1126466388)
 (.leaf 1126498304)))
 (.node 2 (.node 1 (.leaf 1126561874)
 (.leaf 1126562529))
 (.node 1 (.leaf 1126563840)
 (.leaf 1126629376))))
 (.node 4 (.node 2 (.node 1 (.leaf 1126694912)
 (.leaf 1126716539))
 (.node 1 (.leaf 1126733119)
 (.leaf 1126760448)))
 (.node 2 (.node 1 (.leaf 1126775390)
 (.leaf 1126825984))
 (.node 1 (.leaf 1126891520)
 (.leaf 1126957056)))))
 (.node 8 (.node 4 (.node 2 (.node 1 (.leaf 1126960005)
 (.leaf 1126981370))
 (.node 1 (.leaf 1127022592)
 (.leaf 1127038190)))
 (.node 2 (.node 1 (.leaf 1127040287)
 (.leaf 1127088128))
 (.node 1 (.leaf 1127088783)
 (.leaf 1127104709))))
 (.node 4 (.node 2 (.node 1 (.leaf 1127153664)
 (.leaf 1127173980))
 (.node 1 (.leaf 1127219200)
 (.leaf 1127284736)))
 (.node 2 (.node 1 (.leaf 1127292600)
 (.leaf 1127296860))
 (.node 1 (.leaf 1127332577)
 (.leaf 1127335068))))))))
 (.node 64 (.node 32 (.node 16 (.node 8 (.node 4 (.node 2 (.node 1 (.leaf 1127350272)
 (.leaf 1127415808))
 (.node 1 (.leaf 1127481344)
 (.leaf 1127483769)))
 (.node 2 (.node 1 (.leaf 1127535411)
 (.leaf 1127546880))
 (.node 1 (.leaf 1127553040)
 (.leaf 1127565033))))
 (.node 4 (.node 2 (.node 1 (.leaf 1127612416)
 (.leaf 1127633060))
 (.node 1 (.leaf 1127665041)
 (.leaf 1127677952)))
 (.node 2 (.node 1 (.leaf 1127743488)
 (.leaf 1127744143))
 (.node 1 (.leaf 1127803781)
 (.leaf 1127809024)))))
 (.node 8 (.node 4 (.node 2 (.node 1 (.leaf 1127825080)
 (.leaf 1127827440))
 (.node 1 (.leaf 1127835238)
 (.leaf 1127874560)))
 (.node 2 (.node 1 (.leaf 1127940096)
 (.leaf 1128005632))
 (.node 1 (.leaf 1128071168)
 (.leaf 1128136704))))
 (.node 4 (.node 2 (.node 1 (.leaf 1128202240)
 (.leaf 1128267776))
 (.node 1 (.leaf 1128307098)
 (.leaf 1128333312)))
 (.node 2 (.node 1 (.leaf 1128397537)
 (.leaf 1128398848))
 (.node 1 (.leaf 1128400617)
 (.leaf 1128444527))))))
 (.node 16 (.node 8 (.node 4 (.node 2 (.node 1 (.leaf 1128464384)
 (.leaf 1128529920))
 (.node 1 (.leaf 1128595456)
 (.leaf 1128618394)))
 (.node 2 (.node 1 (.leaf 1128660992)
 (.leaf 1128726528))
 (.node 1 (.leaf 1128792064)
 (.leaf 1128857600))))
 (.node 4 (.node 2 (.node 1 (.leaf 1128923136)
 (.leaf 1128988672))
 (.node 1 (.leaf 1129054208)
 (.leaf 1129119744)))
 (.node 2 (.node 1 (.leaf 1129185280)
 (.leaf 1129250816))
 (.node 1 (.leaf 1129316352)
 (.leaf 1129381888)))))
 (.node 8 (.node 4 (.node 2 (.node 1 (.leaf 1129447424)
 (.leaf 1129512960))
 (.node 1 (.leaf 1129578496)
 (.leaf 1129644032)))
 (.node 2 (.node 1 (.leaf 1129709568)
 (.leaf 1129775104))
 (.node 1 (.leaf 1129840640)
 (.leaf 1129906176))))
 (.node 4 (.node 2 (.node 1 (.leaf 1129971712)
 (.leaf 1130037248))
 (.node 1 (.leaf 1130102784)
 (.leaf 1130168320)))
 (.node 2 (.node 1 (.leaf 1130233856)
 (.leaf 1130299392))
 (.node 1 (.leaf 1130364928)
 (.leaf 1130416374)))))))
 (.node 32 (.node 16 (.node 8 (.node 4 (.node 2 (.node 1 (.leaf 1130430464)
 (.leaf 1130496000))
 (.node 1 (.leaf 1130561536)
 (.leaf 1130627072)))
 (.node 2 (.node 1 (.leaf 1130692608)
 (.leaf 1130719019))
 (.node 1 (.leaf 1130758144)
 (.leaf 1130823680))))
 (.node 4 (.node 2 (.node 1 (.leaf 1130889216)
 (.leaf 1130954752))
 (.node 1 (.leaf 1130983391)
 (.leaf 1131020288)))
 (.node 2 (.node 1 (.leaf 1131085824)
 (.leaf 1131151360))
 (.node 1 (.leaf 1131165975)
 (.leaf 1131216896)))))
 (.node 8 (.node 4 (.node 2 (.node 1 (.leaf 1131282432)
 (.leaf 1131347968))
 (.node 1 (.leaf 1131413504)
 (.leaf 1131479040)))
 (.node 2 (.node 1 (.leaf 1131544576)
 (.leaf 1131610112))
 (.node 1 (.leaf 1131675648)
 (.leaf 1131741184))))
 (.node 4 (.node 2 (.node 1 (.leaf 1131806720)
 (.leaf 1131830378))
 (.node 1 (.leaf 1131872256)
 (.leaf 1131937792)))
 (.node 2 (.node 1 (.leaf 1132003328)
 (.leaf 1132068864))
 (.node 1 (.leaf 1132134400)
 (.leaf 1132199936))))))
 (.node 16 (.node 8 (.node 4 (.node 2 (.node 1 (.leaf 1132265472)
 (.leaf 1132331008))
 (.node 1 (.leaf 1132396544)
 (.leaf 1132410831)))
 (.node 2 (.node 1 (.leaf 1132462080)
 (.leaf 1132494848))
 (.node 1 (.leaf 1132527616)
 (.leaf 1132560384))))
 (.node 4 (.node 2 (.node 1 (.leaf 1132593152)
 (.leaf 1132625920))
 (.node 1 (.leaf 1132658688)
 (.leaf 1132691456)))
 (.node 2 (.node 1 (.leaf 1132724224)
 (.leaf 1132756992))
 (.node 1 (.leaf 1132789760)
 (.leaf 1132822528)))))
 (.node 8 (.node 4 (.node 2 (.node 1 (.leaf 1132855296)
 (.leaf 1132888064))
 (.node 1 (.leaf 1132920832)
 (.leaf 1132953600)))
 (.node 2 (.node 1 (.leaf 1132986368)
 (.leaf 1133019136))
 (.node 1 (.leaf 1133051904)
 (.leaf 1133084672))))
 (.node 4 (.node 2 (.node 1 (.leaf 1133117440)
 (.leaf 1133150208))
 (.node 1 (.leaf 1133182976)
 (.leaf 1133215744)))
 (.node 2 (.node 1 (.leaf 1133248512)
 (.leaf 1133281280))
 (.node 1 (.leaf 1133314048)
 (.leaf 1133346816)))))))))))
 (.node 128 (.node 64 (.node 32 (.node 16 (.node 8 (.node 4 (.node 2 (.node 1 (.leaf 1133379584)
 (.leaf 1133412352))
 (.node 1 (.leaf 1133445120)
 (.leaf 1133477888)))
 (.node 2 (.node 1 (.leaf 1133510656)
 (.leaf 1133543424))
 (.node 1 (.leaf 1133576192)
 (.leaf 1133608960))))
 (.node 4 (.node 2 (.node 1 (.leaf 1133641728)
 (.leaf 1133674496))
 (.node 1 (.leaf 1133707264)
 (.leaf 1133740032)))
 (.node 2 (.node 1 (.leaf 1133772800)
 (.leaf 1133805568))
 (.node 1 (.leaf 1133838336)
 (.leaf 1133871104)))))
 (.node 8 (.node 4 (.node 2 (.node 1 (.leaf 1133903872)
 (.leaf 1133936640))
 (.node 1 (.leaf 1133969408)
 (.leaf 1134002176)))
 (.node 2 (.node 1 (.leaf 1134034944)
 (.leaf 1134067712))
 (.node 1 (.leaf 1134100480)
 (.leaf 1134133248))))
 (.node 4 (.node 2 (.node 1 (.leaf 1134166016)
 (.leaf 1134198784))
 (.node 1 (.leaf 1134231552)
 (.leaf 1134264320)))
 (.node 2 (.node 1 (.leaf 1134297088)
 (.leaf 1134329856))
 (.node 1 (.leaf 1134362624)
 (.leaf 1134395392))))))
 (.node 16 (.node 8 (.node 4 (.node 2 (.node 1 (.leaf 1134428160)
 (.leaf 1134460928))
 (.node 1 (.leaf 1134493696)
 (.leaf 1134526464)))
 (.node 2 (.node 1 (.leaf 1134559232)
 (.leaf 1134592000))
 (.node 1 (.leaf 1134624768)
 (.leaf 1134657536))))
 (.node 4 (.node 2 (.node 1 (.leaf 1134690304)
 (.leaf 1134723072))
 (.node 1 (.leaf 1134755840)
 (.leaf 1134788608)))
 (.node 2 (.node 1 (.leaf 1134821376)
 (.leaf 1134854144))
 (.node 1 (.leaf 1134886912)
 (.leaf 1134919680)))))
 (.node 8 (.node 4 (.node 2 (.node 1 (.leaf 1134952448)
 (.leaf 1134985216))
 (.node 1 (.leaf 1135017984)
 (.leaf 1135050752)))
 (.node 2 (.node 1 (.leaf 1135083520)
 (.leaf 1135116288))
 (.node 1 (.leaf 1135149056)
 (.leaf 1135181824))))
 (.node 4 (.node 2 (.node 1 (.leaf 1135214592)
 (.leaf 1135247360))
 (.node 1 (.leaf 1135280128)
 (.leaf 1135312896)))
 (.node 2 (.node 1 (.leaf 1135345664)
 (.leaf 1135378432))
 (.node 1 (.leaf 1135411200)
 (.leaf 1135443968)))))))
 (.node 32 (.node 16 (.node 8 (.node 4 (.node 2 (.node 1 (.leaf 1135476736)
 (.leaf 1135509504))
 (.node 1 (.leaf 1135542272)
 (.leaf 1135575040)))
 (.node 2 (.node 1 (.leaf 1135607808)
 (.leaf 1135640576))
 (.node 1 (.leaf 1135673344)
 (.leaf 1135706112))))
 (.node 4 (.node 2 (.node 1 (.leaf 1135738880)
 (.leaf 1135804416))
 (.node 1 (.leaf 1135837184)
 (.leaf 1135869952)))
 (.node 2 (.node 1 (.leaf 1135902720)
 (.leaf 1135935488))
 (.node 1 (.leaf 1135968256)
 (.leaf 1136001024)))))
 (.node 8 (.node 4 (.node 2 (.node 1 (.leaf 1136033792)
 (.leaf 1136066560))
 (.node 1 (.leaf 1136099328)
 (.leaf 1136132096)))
 (.node 2 (.node 1 (.leaf 1136164864)
 (.leaf 1136197632))
 (.node 1 (.leaf 1136230400)
 (.leaf 1136295936))))
 (.node 4 (.node 2 (.node 1 (.leaf 1136328704)
 (.leaf 1136361472))
 (.node 1 (.leaf 1136394240)
 (.leaf 1136459776)))
 (.node 2 (.node 1 (.leaf 1136525312)
 (.leaf 1136558080))
 (.node 1 (.leaf 1136590848)
 (.leaf 1136623616))))))
 (.node 16 (.node 8 (.node 4 (.node 2 (.node 1 (.leaf 1136656384)
 (.leaf 1136689152))
 (.node 1 (.leaf 1136721920)
 (.leaf 1136754688)))
 (.node 2 (.node 1 (.leaf 1136787456)
 (.leaf 1136820224))
 (.node 1 (.leaf 1136852992)
 (.leaf 1136885760))))
 (.node 4 (.node 2 (.node 1 (.leaf 1136918528)
 (.leaf 1136951296))
 (.node 1 (.leaf 1136984064)
 (.leaf 1137016832)))
 (.node 2 (.node 1 (.leaf 1137049600)
 (.leaf 1137115136))
 (.node 1 (.leaf 1137147904)
 (.leaf 1137180672)))))
 (.node 8 (.node 4 (.node 2 (.node 1 (.leaf 1137213440)
 (.leaf 1137246208))
 (.node 1 (.leaf 1137278976)
 (.leaf 1137311744)))
 (.node 2 (.node 1 (.leaf 1137442816)
 (.leaf 1137508352))
 (.node 1 (.leaf 1137541120)
 (.leaf 1137573888))))
 (.node 4 (.node 2 (.node 1 (.leaf 1137639424)
 (.leaf 1137672192))
 (.node 1 (.leaf 1137704960)
 (.leaf 1137770496)))
 (.node 2 (.node 1 (.leaf 1137836032)
 (.leaf 1137901568))
 (.node 1 (.leaf 1137967104)
 (.leaf 1137999872))))))))
 (.node 4 (.node 2 (.node 1 (.leaf 1138032640)
 (.leaf 1138065408))
 (.node 1 (.leaf 1138098176)
 (.leaf 1138130944)))
 (.node 2 (.node 1 (.leaf 1138229248)
 (.leaf 1138262016))
 (.node 1 (.leaf 1138360320)
 (.leaf 1138425856))))))

/-- Values of the fraction of built-up area, bits of the binary32 number. -/
def builtData : DTree :=
 (.node 4096 (.node 2048 (.node 1024 (.node 512 (.node 256 (.node 128 (.node 64 (.node 32 (.node 16 (.node 8 (.node 4 (.node 2 (.node 1 (.leaf 0)
 (.leaf 967466518))
 (.node 1 (.leaf 967467345)
 (.leaf 967469000)))
 (.node 2 (.node 1 (.leaf 967471484)
 (.leaf 967474797))
 (.node 1 (.leaf 967478942)
 (.leaf 967483917))))
 (.node 4 (.node 2 (.node 1 (.leaf 967489727)
 (.leaf 967496375))
 (.node 1 (.leaf 967503860)
 (.leaf 967512188)))
 (.node 2 (.node 1 (.leaf 967521361)
 (.leaf 967531383))
 (.node 1 (.leaf 967542258)
 (.leaf 967553990)))))
 (.node 8 (.node 4 (.node 2 (.node 1 (.leaf 967566583)
 (.leaf 967580043))
 (.node 1 (.leaf 967594375)
 (.leaf 967609584)))
 (.node 2 (.node 1 (.leaf 967625678)
 (.leaf 967642662))
 (.node 1 (.leaf 967660542)
 (.leaf 967679327))))
 (.node 4 (.node 2 (.node 1 (.leaf 967699024)
 (.leaf 967719640))
 (.node 1 (.leaf 967741185)
 (.leaf 967763666)))
 (.node 2 (.node 1 (.leaf 967787094)
 (.leaf 967811478))
 (.node 1 (.leaf 967836828)
 (.leaf 967863155))))))
 (.node 16 (.node 8 (.node 4 (.node 2 (.node 1 (.leaf 967890469)
 (.leaf 967918783))
 (.node 1 (.leaf 967948107)
 (.leaf 967978456)))
 (.node 2 (.node 1 (.leaf 968009842)
 (.leaf 968042278))
 (.node 1 (.leaf 968075778)
 (.leaf 968110359))))
 (.node 4 (.node 2 (.node 1 (.leaf 968146033)
 (.leaf 968182818))
 (.node 1 (.leaf 968220730)
 (.leaf 968259785)))
 (.node 2 (.node 1 (.leaf 968300003)
 (.leaf 968341401))
 (.node 1 (.leaf 968383997)
 (.leaf 968427813)))))
 (.node 8 (.node 4 (.node 2 (.node 1 (.leaf 968472869)
 (.leaf 968519185))
 (.node 1 (.leaf 968566785)
 (.leaf 968615691)))
 (.node 2 (.node 1 (.leaf 968665926)
 (.leaf 968717517))
 (.node 1 (.leaf 968770487)
 (.leaf 968824864))))
 (.node 4 (.node 2 (.node 1 (.leaf 968880675)
 (.leaf 968937949))
 (.node 1 (.leaf 968996715)
 (.leaf 969057004)))
 (.node 2 (.node 1 (.leaf 969118848)
 (.leaf 969182279))
 (.node 1 (.leaf 969247332)
 (.leaf 969314043)))))))
 (.node 32 (.node 16 (.node 8 (.node 4 (.node 2 (.node 1 (.leaf 969382449)
 (.leaf 969452586))
 (.node 1 (.leaf 969524495)
 (.leaf 969598218)))
 (.node 2 (.node 1 (.leaf 969673797)
 (.leaf 969751277))
 (.node 1 (.leaf 969830703)
 (.leaf 969912123))))
 (.node 4 (.node 2 (.node 1 (.leaf 969995588)
 (.leaf 970081149))
 (.node 1 (.leaf 970168860)
 (.leaf 970258777)))
 (.node 2 (.node 1 (.leaf 970350956)
 (.leaf 970445461))
 (.node 1 (.leaf 970542352)
 (.leaf 970641697)))))
 (.node 8 (.node 4 (.node 2 (.node 1 (.leaf 970743562)
 (.leaf 970848019))
 (.node 1 (.leaf 970955143)
 (.leaf 971065010)))
 (.node 2 (.node 1 (.leaf 971177700)
 (.leaf 971293299))
 (.node 1 (.leaf 971411893)
 (.leaf 971533573))))
 (.node 4 (.node 2 (.node 1 (.leaf 971658436)
 (.leaf 971786580))
 (.node 1 (.leaf 971918112)
 (.leaf 972053137)))
 (.node 2 (.node 1 (.leaf 972191771)
 (.leaf 972334136))
 (.node 1 (.leaf 972480352)
 (.leaf 972630554))))))
 (.node 16 (.node 8 (.node 4 (.node 2 (.node 1 (.leaf 972784875)
 (.leaf 972943462))
 (.node 1 (.leaf 973092496)
 (.leaf 973176285)))
 (.node 2 (.node 1 (.leaf 973262444)
 (.leaf 973351059))
 (.node 1 (.leaf 973442225)
 (.leaf 973536037))))
 (.node 4 (.node 2 (.node 1 (.leaf 973632596)
 (.leaf 973732010))
 (.node 1 (.leaf 973834391)
 (.leaf 973939860)))
 (.node 2 (.node 1 (.leaf 974048541)
 (.leaf 974160568))
 (.node 1 (.leaf 974276080)
 (.leaf 974395227)))))
 (.node 8 (.node 4 (.node 2 (.node 1 (.leaf 974518165)
 (.leaf 974645062))
 (.node 1 (.leaf 974776092)
 (.leaf 974911446)))
 (.node 2 (.node 1 (.leaf 975051321)
 (.leaf 975195928))
 (.node 1 (.leaf 975345495)
 (.leaf 975500259))))
 (.node 4 (.node 2 (.node 1 (.leaf 975660478)
 (.leaf 975826425))
 (.node 1 (.leaf 975855126)
 (.leaf 975855953)))
 (.node 2 (.node 1 (.leaf 975857608)
 (.leaf 975860092))
 (.node 1 (.leaf 975863405)
 (.leaf 975867550))))))))
 (.node 64 (.node 32 (.node 16 (.node 8 (.node 4 (.node 2 (.node 1 (.leaf 975872525)
 (.leaf 975878335))
 (.node 1 (.leaf 975884983)
 (.leaf 975892468)))
 (.node 2 (.node 1 (.leaf 975900796)
 (.leaf 975909969))
 (.node 1 (.leaf 975919991)
 (.leaf 975930866))))
 (.node 4 (.node 2 (.node 1 (.leaf 975942598)
 (.leaf 975955191))
 (.node 1 (.leaf 975968651)
 (.leaf 975982983)))
 (.node 2 (.node 1 (.leaf 975998192)
 (.leaf 975998390))
 (.node 1 (.leaf 976014286)
 (.leaf 976031270)))))
 (.node 8 (.node 4 (.node 2 (.node 1 (.leaf 976049150)
 (.leaf 976067935))
 (.node 1 (.leaf 976087632)
 (.leaf 976108248)))
 (.node 2 (.node 1 (.leaf 976129793)
 (.leaf 976152274))
 (.node 1 (.leaf 976175702)
 (.leaf 976176687))))
 (.node 4 (.node 2 (.node 1 (.leaf 976200086)
 (.leaf 976225436))
 (.node 1 (.leaf 976251763)
 (.leaf 976279077)))
 (.node 2 (.node 1 (.leaf 976307391)
 (.leaf 976336715))
 (.node 1 (.leaf 976361650)
 (.leaf 976367064))))))
 (.node 16 (.node 8 (.node 4 (.node 2 (.node 1 (.leaf 976398450)
 (.leaf 976430886))
 (.node 1 (.leaf 976464386)
 (.leaf 976498967)))
 (.node 2 (.node 1 (.leaf 976534641)
 (.leaf 976553637))
 (.node 1 (.leaf 976571426)
 (.leaf 976609338))))
 (.node 4 (.node 2 (.node 1 (.leaf 976648393)
 (.leaf 976688611))
 (.node 1 (.leaf 976730009)
 (.leaf 976753035)))
 (.node 2 (.node 1 (.leaf 976772605)
 (.leaf 976816421))
 (.node 1 (.leaf 976861477)
 (.leaf 976907793)))))
 (.node 8 (.node 4 (.node 2 (.node 1 (.leaf 976955393)
 (.leaf 976960255))
 (.node 1 (.leaf 977004299)
 (.leaf 977054534)))
 (.node 2 (.node 1 (.leaf 977106125)
 (.leaf 977159095))
 (.node 1 (.leaf 977175743)
 (.leaf 977213472))))
 (.node 4 (.node 2 (.node 1 (.leaf 977269283)
 (.leaf 977326557))
 (.node 1 (.leaf 977385323)
 (.leaf 977445612)))
 (.node 2 (.node 1 (.leaf 977507456)
 (.leaf 977570887))
 (.node 1 (.leaf 977633481)
 (.leaf 977635940)))))))
 (.node 32 (.node 16 (.node 8 (.node 4 (.node 2 (.node 1 (.leaf 977702651)
 (.leaf 977771057))
 (.node 1 (.leaf 977841194)
 (.leaf 977876810)))
 (.node 2 (.node 1 (.leaf 977913103)
 (.leaf 977986826))
 (.node 1 (.leaf 978062405)
 (.leaf 978139885))))
 (.node 4 (.node 2 (.node 1 (.leaf 978219311)
 (.leaf 978300731))
 (.node 1 (.leaf 978384196)
 (.leaf 978395419)))
 (.node 2 (.node 1 (.leaf 978469757)
 (.leaf 978557468))
 (.node 1 (.leaf 978647385)
 (.leaf 978739564)))))
 (.node 8 (.node 4 (.node 2 (.node 1 (.leaf 978834069)
 (.leaf 978930960))
 (.node 1 (.leaf 978961300)
 (.leaf 979030305)))
 (.node 2 (.node 1 (.leaf 979132170)
 (.leaf 979236627))
 (.node 1 (.leaf 979263956)
 (.leaf 979343751))))
 (.node 4 (.node 2 (.node 1 (.leaf 979453618)
 (.leaf 979566308))
 (.node 1 (.leaf 979681907)
 (.leaf 979800501)))
 (.node 2 (.node 1 (.leaf 979913328)
 (.leaf 979922181))
 (.node 1 (.leaf 980047044)
 (.leaf 980175188))))))
 (.node 16 (.node 8 (.node 4 (.node 2 (.node 1 (.leaf 980306720)
 (.leaf 980441745))
 (.node 1 (.leaf 980580379)
 (.leaf 980628688)))
 (.node 2 (.node 1 (.leaf 980722744)
 (.leaf 980868960))
 (.node 1 (.leaf 981014241)
 (.leaf 981019162))))
 (.node 4 (.node 2 (.node 1 (.leaf 981173483)
 (.leaf 981332070))
 (.node 1 (.leaf 981420303)
 (.leaf 981437729)))
 (.node 2 (.node 1 (.leaf 981438970)
 (.leaf 981441453))
 (.node 1 (.leaf 981445178)
 (.leaf 981450148)))))
 (.node 8 (.node 4 (.node 2 (.node 1 (.leaf 981456364)
 (.leaf 981463827))
 (.node 1 (.leaf 981469840)
 (.leaf 981474825)))
 (.node 2 (.node 1 (.leaf 981480439)
 (.leaf 981481104))
 (.node 1 (.leaf 981486685)
 (.leaf 981493565))))
 (.node 4 (.node 2 (.node 1 (.leaf 981501081)
 (.leaf 981509238))
 (.node 1 (.leaf 981518036)
 (.leaf 981527481)))
 (.node 2 (.node 1 (.leaf 981537576)
 (.leaf 981548325))
 (.node 1 (.leaf 981559732)
 (.leaf 981564893)))))))))
 (.node 128 (.node 64 (.node 32 (.node 16 (.node 8 (.node 4 (.node 2 (.node 1 (.leaf 981571803)
 (.leaf 981584540))
 (.node 1 (.leaf 981597951)
 (.leaf 981612039)))
 (.node 2 (.node 1 (.leaf 981626812)
 (.leaf 981642274))
 (.node 1 (.leaf 981651052)
 (.leaf 981658432))))
 (.node 4 (.node 2 (.node 1 (.leaf 981675294)
 (.leaf 981692864))
 (.node 1 (.leaf 981711152)
 (.leaf 981730165)))
 (.node 2 (.node 1 (.leaf 981739667)
 (.leaf 981749910))
 (.node 1 (.leaf 981770395)
 (.leaf 981791631)))))
 (.node 8 (.node 4 (.node 2 (.node 1 (.leaf 981813625)
 (.leaf 981830833))
 (.node 1 (.leaf 981836386)
 (.leaf 981859925)))
 (.node 2 (.node 1 (.leaf 981884252)
 (.leaf 981909378))
 (.node 1 (.leaf 981924645)
 (.leaf 981935313))))
 (.node 4 (.node 2 (.node 1 (.leaf 981962069)
 (.leaf 981989658))
 (.node 1 (.leaf 982018091)
 (.leaf 982021204)))
 (.node 2 (.node 1 (.leaf 982047383)
 (.leaf 982077546))
 (.node 1 (.leaf 982108595)
 (.leaf 982120618))))))
 (.node 16 (.node 8 (.node 4 (.node 2 (.node 1 (.leaf 982140542)
 (.leaf 982173404))
 (.node 1 (.leaf 982207196)
 (.leaf 982222999)))
 (.node 2 (.node 1 (.leaf 982241933)
 (.leaf 982277633))
 (.node 1 (.leaf 982314312)
 (.leaf 982328468))))
 (.node 4 (.node 2 (.node 1 (.leaf 982351989)
 (.leaf 982390682))
 (.node 1 (.leaf 982430410)
 (.leaf 982437149)))
 (.node 2 (.node 1 (.leaf 982471192)
 (.leaf 982513050))
 (.node 1 (.leaf 982549176)
 (.leaf 982556006)))))
 (.node 8 (.node 4 (.node 2 (.node 1 (.leaf 982600080)
 (.leaf 982645297))
 (.node 1 (.leaf 982664688)
 (.leaf 982691680)))
 (.node 2 (.node 1 (.leaf 982739254)
 (.leaf 982783835))
 (.node 1 (.leaf 982788043)
 (.leaf 982838076))))
 (.node 4 (.node 2 (.node 1 (.leaf 982889380)
 (.leaf 982906773))
 (.node 1 (.leaf 982941983)
 (.leaf 982995916)))
 (.node 2 (.node 1 (.leaf 983033670)
 (.leaf 983051208))
 (.node 1 (.leaf 983107892)
 (.leaf 983164700)))))))
 (.node 32 (.node 16 (.node 8 (.node 4 (.node 2 (.node 1 (.leaf 983166002)
 (.leaf 983225571))
 (.node 1 (.leaf 983286636)
 (.leaf 983300054)))
 (.node 2 (.node 1 (.leaf 983349235)
 (.leaf 983413406))
 (.node 1 (.leaf 983439929)
 (.leaf 983479189))))
 (.node 4 (.node 2 (.node 1 (.leaf 983546627)
 (.leaf 983584536))
 (.node 1 (.leaf 983615761)
 (.leaf 983686639)))
 (.node 2 (.node 1 (.leaf 983734103)
 (.leaf 983759308))
 (.node 1 (.leaf 983833817)
 (.leaf 983888867)))))
 (.node 8 (.node 4 (.node 2 (.node 1 (.leaf 983910216)
 (.leaf 983988559))
 (.node 1 (.leaf 984049086)
 (.leaf 984068901)))
 (.node 2 (.node 1 (.leaf 984151301)
 (.leaf 984215033))
 (.node 1 (.leaf 984235819)
 (.leaf 984243734))))
 (.node 4 (.node 2 (.node 1 (.leaf 984244561)
 (.leaf 984246216))
 (.node 1 (.leaf 984248700)
 (.leaf 984252013)))
 (.node 2 (.node 1 (.leaf 984256158)
 (.leaf 984261133))
 (.node 1 (.leaf 984266943)
 (.leaf 984273591))))))
 (.node 16 (.node 8 (.node 4 (.node 2 (.node 1 (.leaf 984281076)
 (.leaf 984289404))
 (.node 1 (.leaf 984298577)
 (.leaf 984308599)))
 (.node 2 (.node 1 (.leaf 984319474)
 (.leaf 984322518))
 (.node 1 (.leaf 984331206)
 (.leaf 984343799))))
 (.node 4 (.node 2 (.node 1 (.leaf 984357259)
 (.leaf 984386800))
 (.node 1 (.leaf 984386998)
 (.leaf 984402894)))
 (.node 2 (.node 1 (.leaf 984411464)
 (.leaf 984419878))
 (.node 1 (.leaf 984437758)
 (.leaf 984456543)))))
 (.node 8 (.node 4 (.node 2 (.node 1 (.leaf 984476240)
 (.leaf 984496856))
 (.node 1 (.leaf 984502724)
 (.leaf 984518401)))
 (.node 2 (.node 1 (.leaf 984540882)
 (.leaf 984564310))
 (.node 1 (.leaf 984565295)
 (.leaf 984588694))))
 (.node 4 (.node 2 (.node 1 (.leaf 984596371)
 (.leaf 984614044))
 (.node 1 (.leaf 984640371)
 (.leaf 984667685)))
 (.node 2 (.node 1 (.leaf 984692479)
 (.leaf 984695999))
 (.node 1 (.leaf 984725323)
 (.leaf 984750258))))))))
 (.node 64 (.node 32 (.node 16 (.node 8 (.node 4 (.node 2 (.node 1 (.leaf 984755672)
 (.leaf 984787058))
 (.node 1 (.leaf 984791128)
 (.leaf 984819494)))
 (.node 2 (.node 1 (.leaf 984852994)
 (.leaf 984887575))
 (.node 1 (.leaf 984892397)
 (.leaf 984923249))))
 (.node 4 (.node 2 (.node 1 (.leaf 984942245)
 (.leaf 984960034))
 (.node 1 (.leaf 984996372)
 (.leaf 984997946)))
 (.node 2 (.node 1 (.leaf 985037001)
 (.leaf 985077219))
 (.node 1 (.leaf 985103146)
 (.leaf 985118617)))))
 (.node 8 (.node 4 (.node 2 (.node 1 (.leaf 985141643)
 (.leaf 985161213))
 (.node 1 (.leaf 985205029)
 (.leaf 985212808)))
 (.node 2 (.node 1 (.leaf 985250085)
 (.leaf 985296401))
 (.node 1 (.leaf 985325459)
 (.leaf 985344001))))
 (.node 4 (.node 2 (.node 1 (.leaf 985348863)
 (.leaf 985392907))
 (.node 1 (.leaf 985441201)
 (.leaf 985443142)))
 (.node 2 (.node 1 (.leaf 985494733)
 (.leaf 985547703))
 (.node 1 (.leaf 985560141)
 (.leaf 985564351))))))
 (.node 16 (.node 8 (.node 4 (.node 2 (.node 1 (.leaf 985602080)
 (.leaf 985657891))
 (.node 1 (.leaf 985682392)
 (.leaf 985715165)))
 (.node 2 (.node 1 (.leaf 985773931)
 (.leaf 985788587))
 (.node 1 (.leaf 985808076)
 (.leaf 985834220))))
 (.node 4 (.node 2 (.node 1 (.leaf 985896064)
 (.leaf 985937314))
 (.node 1 (.leaf 985959495)
 (.leaf 986022089)))
 (.node 2 (.node 1 (.leaf 986024548)
 (.leaf 986070237))
 (.node 1 (.leaf 986091259)
 (.leaf 986159665)))))
 (.node 8 (.node 4 (.node 2 (.node 1 (.leaf 986206986)
 (.leaf 986229802))
 (.node 1 (.leaf 986265418)
 (.leaf 986301711)))
 (.node 2 (.node 1 (.leaf 986347703)
 (.leaf 986375434))
 (.node 1 (.leaf 986451013)
 (.leaf 986492542))))
 (.node 4 (.node 2 (.node 1 (.leaf 986528493)
 (.leaf 986607919))
 (.node 1 (.leaf 986641663)
 (.leaf 986689339)))
 (.node 2 (.node 1 (.leaf 986772804)
 (.leaf 986795235))
 (.node 1 (.leaf 986858365)
 (.leaf 986946076)))))))
 (.node 32 (.node 16 (.node 8 (.node 4 (.node 2 (.node 1 (.leaf 986953437)
 (.leaf 987035993))
 (.node 1 (.leaf 987036070)
 (.leaf 987041243)))
 (.node 2 (.node 1 (.leaf 987045385)
 (.leaf 987050565))
 (.node 1 (.leaf 987056784)
 (.leaf 987060677))))
 (.node 4 (.node 2 (.node 1 (.leaf 987064047)
 (.leaf 987072356))
 (.node 1 (.leaf 987081713)
 (.leaf 987092123)))
 (.node 2 (.node 1 (.leaf 987116117)
 (.leaf 987116460))
 (.node 1 (.leaf 987128172)
 (.leaf 987144375)))))
 (.node 8 (.node 4 (.node 2 (.node 1 (.leaf 987160116)
 (.leaf 987176941))
 (.node 1 (.leaf 987194856)
 (.leaf 987213868)))
 (.node 2 (.node 1 (.leaf 987222677)
 (.leaf 987233986))
 (.node 1 (.leaf 987255215)
 (.leaf 987277566))))
 (.node 4 (.node 2 (.node 1 (.leaf 987284499)
 (.leaf 987301047))
 (.node 1 (.leaf 987319568)
 (.leaf 987325668)))
 (.node 2 (.node 1 (.leaf 987349908)
 (.leaf 987378369))
 (.node 1 (.leaf 987406471)
 (.leaf 987418913))))))
 (.node 16 (.node 8 (.node 4 (.node 2 (.node 1 (.leaf 987435755)
 (.leaf 987457768))
 (.node 1 (.leaf 987466235)
 (.leaf 987497922)))
 (.node 2 (.node 1 (.leaf 987520778)
 (.leaf 987564974))
 (.node 1 (.leaf 987600366)
 (.leaf 987625235))))
 (.node 4 (.node 2 (.node 1 (.leaf 987636488)
 (.leaf 987637022))
 (.node 1 (.leaf 987652564)
 (.leaf 987674957)))
 (.node 2 (.node 1 (.leaf 987714190)
 (.leaf 987732359))
 (.node 1 (.leaf 987754735)
 (.leaf 987796611)))))
 (.node 8 (.node 4 (.node 2 (.node 1 (.leaf 987820895)
 (.leaf 987839836))
 (.node 1 (.leaf 987842226)
 (.leaf 987884430)))
 (.node 2 (.node 1 (.leaf 987930411)
 (.leaf 987954916))
 (.node 1 (.leaf 987969570)
 (.leaf 987977800))))
 (.node 4 (.node 2 (.node 1 (.leaf 988011240)
 (.leaf 988026619))
 (.node 1 (.leaf 988070515)
 (.leaf 988076891)))
 (.node 2 (.node 1 (.leaf 988128639)
 (.leaf 988181885))
 (.node 1 (.leaf 988189109)
 (.leaf 988207787))))))))))
 (.node 256 (.node 128 (.node 64 (.node 32 (.node 16 (.node 8 (.node 4 (.node 2 (.node 1 (.leaf 988236654)
 (.leaf 988292974))
 (.node 1 (.leaf 988310789)
 (.leaf 988350870)))
 (.node 2 (.node 1 (.leaf 988410370)
 (.leaf 988410816))
 (.node 1 (.leaf 988435652)
 (.leaf 988471501))))
 (.node 4 (.node 2 (.node 1 (.leaf 988534296)
 (.leaf 988563796))
 (.node 1 (.leaf 988598785)
 (.leaf 988620629)))
 (.node 2 (.node 1 (.leaf 988650772)
 (.leaf 988664997))
 (.node 1 (.leaf 988695328)
 (.leaf 988732968)))))
 (.node 8 (.node 4 (.node 2 (.node 1 (.leaf 988802732)
 (.leaf 988830353))
 (.node 1 (.leaf 988837540)
 (.leaf 988874324)))
 (.node 2 (.node 1 (.leaf 988947781)
 (.leaf 988968987))
 (.node 1 (.leaf 989023143)
 (.leaf 989061890))))
 (.node 4 (.node 2 (.node 1 (.leaf 989100447)
 (.leaf 989111352))
 (.node 1 (.leaf 989179737)
 (.leaf 989257568)))
 (.node 2 (.node 1 (.leaf 989261053)
 (.leaf 989294036))
 (.node 1 (.leaf 989344442)
 (.leaf 989407770))))))
 (.node 16 (.node 8 (.node 4 (.node 2 (.node 1 (.leaf 989429949)
 (.leaf 989517620))
 (.node 1 (.leaf 989534364)
 (.leaf 989562091)))
 (.node 2 (.node 1 (.leaf 989607507)
 (.leaf 989699661))
 (.node 1 (.leaf 989720678)
 (.leaf 989783285))))
 (.node 4 (.node 2 (.node 1 (.leaf 989794134)
 (.leaf 989808911))
 (.node 1 (.leaf 989826337)
 (.leaf 989827578)))
 (.node 2 (.node 1 (.leaf 989833786)
 (.leaf 989838756))
 (.node 1 (.leaf 989844972)
 (.leaf 989852435)))))
 (.node 8 (.node 4 (.node 2 (.node 1 (.leaf 989858448)
 (.leaf 989869047))
 (.node 1 (.leaf 989869712)
 (.leaf 989873364)))
 (.node 2 (.node 1 (.leaf 989875293)
 (.leaf 989882173))
 (.node 1 (.leaf 989889689)
 (.leaf 989897846))))
 (.node 4 (.node 2 (.node 1 (.leaf 989906644)
 (.leaf 989916089))
 (.node 1 (.leaf 989923005)
 (.leaf 989926184)))
 (.node 2 (.node 1 (.leaf 989936933)
 (.leaf 989948488))
 (.node 1 (.leaf 989953501)
 (.leaf 989960411)))))))
 (.node 32 (.node 16 (.node 8 (.node 4 (.node 2 (.node 1 (.leaf 989973148)
 (.leaf 989973893))
 (.node 1 (.leaf 989986559)
 (.leaf 990000647)))
 (.node 2 (.node 1 (.leaf 990026059)
 (.leaf 990030882))
 (.node 1 (.leaf 990039660)
 (.leaf 990047040))))
 (.node 4 (.node 2 (.node 1 (.leaf 990063902)
 (.leaf 990079534))
 (.node 1 (.leaf 990081472)
 (.leaf 990082211)))
 (.node 2 (.node 1 (.leaf 990099760)
 (.leaf 990118773))
 (.node 1 (.leaf 990128275)
 (.leaf 990134354)))))
 (.node 8 (.node 4 (.node 2 (.node 1 (.leaf 990138518)
 (.leaf 990159003))
 (.node 1 (.leaf 990180239)
 (.leaf 990190552)))
 (.node 2 (.node 1 (.leaf 990202233)
 (.leaf 990219441))
 (.node 1 (.leaf 990220934)
 (.leaf 990224994))))
 (.node 4 (.node 2 (.node 1 (.leaf 990248163)
 (.leaf 990248533))
 (.node 1 (.leaf 990272860)
 (.leaf 990297986)))
 (.node 2 (.node 1 (.leaf 990307229)
 (.leaf 990313253))
 (.node 1 (.leaf 990323921)
 (.leaf 990350677))))))
 (.node 16 (.node 8 (.node 4 (.node 2 (.node 1 (.leaf 990364924)
 (.leaf 990367786))
 (.node 1 (.leaf 990378266)
 (.leaf 990406699)))
 (.node 2 (.node 1 (.leaf 990409812)
 (.leaf 990429877))
 (.node 1 (.leaf 990435991)
 (.leaf 990466154))))
 (.node 4 (.node 2 (.node 1 (.leaf 990493542)
 (.leaf 990497203))
 (.node 1 (.leaf 990509226)
 (.leaf 990514472)))
 (.node 2 (.node 1 (.leaf 990529150)
 (.leaf 990558828))
 (.node 1 (.leaf 990562012)
 (.leaf 990595804)))))
 (.node 8 (.node 4 (.node 2 (.node 1 (.leaf 990611607)
 (.leaf 990625780))
 (.node 1 (.leaf 990630541)
 (.leaf 990666241)))
 (.node 2 (.node 1 (.leaf 990669887)
 (.leaf 990694447))
 (.node 1 (.leaf 990702920)
 (.leaf 990717076))))
 (.node 4 (.node 2 (.node 1 (.leaf 990740597)
 (.leaf 990764878))
 (.node 1 (.leaf 990779290)
 (.leaf 990819018)))
 (.node 2 (.node 1 (.leaf 990825757)
 (.leaf 990831503))
 (.node 1 (.leaf 990837128)
 (.leaf 990859800))))))))
 (.node 64 (.node 32 (.node 16 (.node 8 (.node 4 (.node 2 (.node 1 (.leaf 990901658)
 (.leaf 990911249))
 (.node 1 (.leaf 990937784)
 (.leaf 990944614)))
 (.node 2 (.node 1 (.leaf 990987299)
 (.leaf 990988688))
 (.node 1 (.leaf 991033905)
 (.leaf 991053296))))
 (.node 4 (.node 2 (.node 1 (.leaf 991065338)
 (.leaf 991080288))
 (.node 1 (.leaf 991127862)
 (.leaf 991145429)))
 (.node 2 (.node 1 (.leaf 991172443)
 (.leaf 991174807))
 (.node 1 (.leaf 991176651)
 (.leaf 991226684)))))
 (.node 8 (.node 4 (.node 2 (.node 1 (.leaf 991227636)
 (.leaf 991236691))
 (.node 1 (.leaf 991237415)
 (.leaf 991238863)))
 (.node 2 (.node 1 (.leaf 991241037)
 (.leaf 991247562))
 (.node 1 (.leaf 991262816)
 (.leaf 991269366))))
 (.node 4 (.node 2 (.node 1 (.leaf 991276652)
 (.leaf 991277988))
 (.node 1 (.leaf 991293448)
 (.leaf 991295381)))
 (.node 2 (.node 1 (.leaf 991302964)
 (.leaf 991312027))
 (.node 1 (.leaf 991313229)
 (.leaf 991324248))))))
 (.node 16 (.node 8 (.node 4 (.node 2 (.node 1 (.leaf 991330591)
 (.leaf 991336025))
 (.node 1 (.leaf 991348566)
 (.leaf 991357303)))
 (.node 2 (.node 1 (.leaf 991361874)
 (.leaf 991375956))
 (.node 1 (.leaf 991384524)
 (.leaf 991390817))))
 (.node 4 (.node 2 (.node 1 (.leaf 991398673)
 (.leaf 991406462))
 (.node 1 (.leaf 991422278)
 (.leaf 991422899)))
 (.node 2 (.node 1 (.leaf 991439816)
 (.leaf 991458173))
 (.node 1 (.leaf 991477025)
 (.leaf 991487651)))))
 (.node 8 (.node 4 (.node 2 (.node 1 (.leaf 991496500)
 (.leaf 991496696))
 (.node 1 (.leaf 991517195)
 (.leaf 991538531)))
 (.node 2 (.node 1 (.leaf 991547623)
 (.leaf 991553308))
 (.node 1 (.leaf 991554610)
 (.leaf 991560712))))
 (.node 4 (.node 2 (.node 1 (.leaf 991579036)
 (.leaf 991583748))
 (.node 1 (.leaf 991614179)
 (.leaf 991632423)))
 (.node 2 (.node 1 (.leaf 991658082)
 (.leaf 991672912))
 (.node 1 (.leaf 991675244)
 (.leaf 991688662)))))))
 (.node 32 (.node 16 (.node 8 (.node 4 (.node 2 (.node 1 (.leaf 991712100)
 (.leaf 991737843))
 (.node 1 (.leaf 991740481)
 (.leaf 991769363)))
 (.node 2 (.node 1 (.leaf 991769794)
 (.leaf 991800052))
 (.node 1 (.leaf 991802014)
 (.leaf 991828537))))
 (.node 4 (.node 2 (.node 1 (.leaf 991831267)
 (.leaf 991863454))
 (.node 1 (.leaf 991867797)
 (.leaf 991868480)))
 (.node 2 (.node 1 (.leaf 991896627)
 (.leaf 991930800))
 (.node 1 (.leaf 991935235)
 (.leaf 991965990)))))
 (.node 8 (.node 4 (.node 2 (.node 1 (.leaf 991970356)
 (.leaf 991973144))
 (.node 1 (.leaf 992002214)
 (.leaf 992004369)))
 (.node 2 (.node 1 (.leaf 992039486)
 (.leaf 992075092))
 (.node 1 (.leaf 992075247)
 (.leaf 992077824))))
 (.node 4 (.node 2 (.node 1 (.leaf 992117249)
 (.leaf 992122711))
 (.node 1 (.leaf 992147916)
 (.leaf 992157775)))
 (.node 2 (.node 1 (.leaf 992182791)
 (.leaf 992222425))
 (.node 1 (.leaf 992242217)
 (.leaf 992277475))))))
 (.node 16 (.node 8 (.node 4 (.node 2 (.node 1 (.leaf 992286173)
 (.leaf 992293560))
 (.node 1 (.leaf 992298824)
 (.leaf 992331316)))
 (.node 2 (.node 1 (.leaf 992377167)
 (.leaf 992377665))
 (.node 1 (.leaf 992397663)
 (.leaf 992407518))))
 (.node 4 (.node 2 (.node 1 (.leaf 992425244)
 (.leaf 992437694))
 (.node 1 (.leaf 992457509)
 (.leaf 992474079)))
 (.node 2 (.node 1 (.leaf 992524194)
 (.leaf 992524782))
 (.node 1 (.leaf 992539909)
 (.leaf 992575613)))))
 (.node 8 (.node 4 (.node 2 (.node 1 (.leaf 992603641)
 (.leaf 992624427))
 (.node 1 (.leaf 992628366)
 (.leaf 992634824)))
 (.node 2 (.node 1 (.leaf 992644766)
 (.leaf 992645481))
 (.node 1 (.leaf 992649741)
 (.leaf 992655551))))
 (.node 4 (.node 2 (.node 1 (.leaf 992662199)
 (.leaf 992678012))
 (.node 1 (.leaf 992682480)
 (.leaf 992697207)))
 (.node 2 (.node 1 (.leaf 992711126)
 (.leaf 992732407))
 (.node 1 (.leaf 992737982)
 (.leaf 992745867)))))))))
 (.node 128 (.node 64 (.node 32 (.node 16 (.node 8 (.node 4 (.node 2 (.node 1 (.leaf 992760199)
 (.leaf 992769748))
 (.node 1 (.leaf 992775408)
 (.leaf 992775606)))
 (.node 2 (.node 1 (.leaf 992791502)
 (.leaf 992794903))
 (.node 1 (.leaf 992800072)
 (.leaf 992808486))))
 (.node 4 (.node 2 (.node 1 (.leaf 992826366)
 (.leaf 992845151))
 (.node 1 (.leaf 992853276)
 (.leaf 992864848)))
 (.node 2 (.node 1 (.leaf 992884692)
 (.leaf 992885464))
 (.node 1 (.leaf 992891332)
 (.leaf 992897725)))))
 (.node 8 (.node 4 (.node 2 (.node 1 (.leaf 992913130)
 (.leaf 992929490))
 (.node 1 (.leaf 992952918)
 (.leaf 992953903)))
 (.node 2 (.node 1 (.leaf 992974501)
 (.leaf 992977302))
 (.node 1 (.leaf 992984979)
 (.leaf 993002652))))
 (.node 4 (.node 2 (.node 1 (.leaf 993028979)
 (.leaf 993029560))
 (.node 1 (.leaf 993037422)
 (.leaf 993056293)))
 (.node 2 (.node 1 (.leaf 993081087)
 (.leaf 993084607))
 (.node 1 (.leaf 993101929)
 (.leaf 993113931))))))
 (.node 16 (.node 8 (.node 4 (.node 2 (.node 1 (.leaf 993138866)
 (.leaf 993144280))
 (.node 1 (.leaf 993146319)
 (.leaf 993165412)))
 (.node 2 (.node 1 (.leaf 993168060)
 (.leaf 993175666))
 (.node 1 (.leaf 993179736)
 (.leaf 993208102))))
 (.node 4 (.node 2 (.node 1 (.leaf 993235855)
 (.leaf 993241602))
 (.node 1 (.leaf 993276183)
 (.leaf 993281005)))
 (.node 2 (.node 1 (.leaf 993305353)
 (.leaf 993305445))
 (.node 1 (.leaf 993311857)
 (.leaf 993330853)))))
 (.node 8 (.node 4 (.node 2 (.node 1 (.leaf 993348642)
 (.leaf 993376596))
 (.node 1 (.leaf 993384980)
 (.leaf 993421212)))
 (.node 2 (.node 1 (.leaf 993425609)
 (.leaf 993449628))
 (.node 1 (.leaf 993449836)
 (.leaf 993465827))))
 (.node 4 (.node 2 (.node 1 (.leaf 993491754)
 (.leaf 993507225))
 (.node 1 (.leaf 993524494)
 (.leaf 993530251)))
 (.node 2 (.node 1 (.leaf 993549821)
 (.leaf 993593637))
 (.node 1 (.leaf 993598769)
 (.leaf 993601241)))))))
 (.node 32 (.node 16 (.node 8 (.node 4 (.node 2 (.node 1 (.leaf 993601416)
 (.leaf 993638693))
 (.node 1 (.leaf 993679918)
 (.leaf 993685009)))
 (.node 2 (.node 1 (.leaf 993714067)
 (.leaf 993732609))
 (.node 1 (.leaf 993737471)
 (.leaf 993752442))))
 (.node 4 (.node 2 (.node 1 (.leaf 993760574)
 (.leaf 993781515))
 (.node 1 (.leaf 993829809)
 (.leaf 993831750)))
 (.node 2 (.node 1 (.leaf 993843266)
 (.leaf 993883341))
 (.node 1 (.leaf 993911063)
 (.leaf 993928046)))))
 (.node 8 (.node 4 (.node 2 (.node 1 (.leaf 993936311)
 (.leaf 993948749))
 (.node 1 (.leaf 993952959)
 (.leaf 993990688)))
 (.node 2 (.node 1 (.leaf 994014973)
 (.leaf 994027993))
 (.node 1 (.leaf 994028924)
 (.leaf 994030786))))
 (.node 4 (.node 2 (.node 1 (.leaf 994033580)
 (.leaf 994041969))
 (.node 1 (.leaf 994046499)
 (.leaf 994061582)))
 (.node 2 (.node 1 (.leaf 994070003)
 (.leaf 994071000))
 (.node 1 (.leaf 994074852)
 (.leaf 994100966))))))
 (.node 16 (.node 8 (.node 4 (.node 2 (.node 1 (.leaf 994103773)
 (.leaf 994104105))
 (.node 1 (.leaf 994113200)
 (.leaf 994126398)))
 (.node 2 (.node 1 (.leaf 994140566)
 (.leaf 994162539))
 (.node 1 (.leaf 994171831)
 (.leaf 994195505))))
 (.node 4 (.node 2 (.node 1 (.leaf 994196684)
 (.leaf 994222828))
 (.node 1 (.leaf 994226155)
 (.leaf 994244043)))
 (.node 2 (.node 1 (.leaf 994246270)
 (.leaf 994284672))
 (.node 1 (.leaf 994289238)
 (.leaf 994312755)))))
 (.node 8 (.node 4 (.node 2 (.node 1 (.leaf 994325922)
 (.leaf 994348103))
 (.node 1 (.leaf 994362284)
 (.leaf 994385372)))
 (.node 2 (.node 1 (.leaf 994388640)
 (.leaf 994413156))
 (.node 1 (.leaf 994416072)
 (.leaf 994418887))))
 (.node 4 (.node 2 (.node 1 (.leaf 994458845)
 (.leaf 994474209))
 (.node 1 (.leaf 994479867)
 (.leaf 994483975)))
 (.node 2 (.node 1 (.leaf 994536790)
 (.leaf 994548273))
 (.node 1 (.leaf 994569781)
 (.leaf 994585125))))))))
 (.node 64 (.node 32 (.node 16 (.node 8 (.node 4 (.node 2 (.node 1 (.leaf 994595594)
 (.leaf 994599646))
 (.node 1 (.leaf 994603923)
 (.leaf 994618410)))
 (.node 2 (.node 1 (.leaf 994639232)
 (.leaf 994675722))
 (.node 1 (.leaf 994688894)
 (.leaf 994690319))))
 (.node 4 (.node 2 (.node 1 (.leaf 994736311)
 (.leaf 994752313))
 (.node 1 (.leaf 994764042)
 (.leaf 994786604)))
 (.node 2 (.node 1 (.leaf 994792448)
 (.leaf 994795365))
 (.node 1 (.leaf 994833831)
 (.leaf 994839621)))))
 (.node 8 (.node 4 (.node 2 (.node 1 (.leaf 994876481)
 (.leaf 994881150))
 (.node 1 (.leaf 994904619)
 (.leaf 994920418)))
 (.node 2 (.node 1 (.leaf 994965663)
 (.leaf 994980060))
 (.node 1 (.leaf 994996527)
 (.leaf 995012236))))
 (.node 4 (.node 2 (.node 1 (.leaf 995016746)
 (.leaf 995030271))
 (.node 1 (.leaf 995060157)
 (.leaf 995077947)))
 (.node 2 (.node 1 (.leaf 995109449)
 (.leaf 995131836))
 (.node 1 (.leaf 995160138)
 (.leaf 995161412))))))
 (.node 16 (.node 8 (.node 4 (.node 2 (.node 1 (.leaf 995180333)
 (.leaf 995183843))
 (.node 1 (.leaf 995212244)
 (.leaf 995246973)))
 (.node 2 (.node 1 (.leaf 995249983)
 (.leaf 995265794))
 (.node 1 (.leaf 995320812)
 (.leaf 995334684))))
 (.node 4 (.node 2 (.node 1 (.leaf 995342045)
 (.leaf 995371288))
 (.node 1 (.leaf 995377327)
 (.leaf 995387767)))
 (.node 2 (.node 1 (.leaf 995423643)
 (.leaf 995424601))
 (.node 1 (.leaf 995426747)
 (.leaf 995429851)))))
 (.node 8 (.node 4 (.node 2 (.node 1 (.leaf 995439173)
 (.leaf 995452655))
 (.node 1 (.leaf 995460964)
 (.leaf 995492198)))
 (.node 2 (.node 1 (.leaf 995494958)
 (.leaf 995495857))
 (.node 1 (.leaf 995504725)
 (.leaf 995505068))))
 (.node 4 (.node 2 (.node 1 (.leaf 995516780)
 (.leaf 995532983))
 (.node 1 (.leaf 995548724)
 (.leaf 995556132)))
 (.node 2 (.node 1 (.leaf 995583464)
 (.leaf 995602723))
 (.node 1 (.leaf 995611285)
 (.leaf 995618920)))))))
 (.node 32 (.node 16 (.node 8 (.node 4 (.node 2 (.node 1 (.leaf 995623796)
 (.leaf 995643823))
 (.node 1 (.leaf 995666174)
 (.leaf 995673107)))
 (.node 2 (.node 1 (.leaf 995683353)
 (.leaf 995689655))
 (.node 1 (.leaf 995708176)
 (.leaf 995740046))))
 (.node 4 (.node 2 (.node 1 (.leaf 995749464)
 (.leaf 995755222))
 (.node 1 (.leaf 995766977)
 (.leaf 995807521)))
 (.node 2 (.node 1 (.leaf 995817289)
 (.leaf 995824363))
 (.node 1 (.leaf 995825595)
 (.leaf 995846376)))))
 (.node 8 (.node 4 (.node 2 (.node 1 (.leaf 995886530)
 (.leaf 995886863))
 (.node 1 (.leaf 995890254)
 (.leaf 995909386)))
 (.node 2 (.node 1 (.leaf 995919439)
 (.leaf 995958224))
 (.node 1 (.leaf 995988974)
 (.leaf 996013843))))
 (.node 4 (.node 2 (.node 1 (.leaf 996025096)
 (.leaf 996025630))
 (.node 1 (.leaf 996029017)
 (.leaf 996041172)))
 (.node 2 (.node 1 (.leaf 996063565)
 (.leaf 996102798))
 (.node 1 (.leaf 996106458)
 (.leaf 996120967))))))
 (.node 16 (.node 8 (.node 4 (.node 2 (.node 1 (.leaf 996171644)
 (.leaf 996183415))
 (.node 1 (.leaf 996209503)
 (.leaf 996228444)))
 (.node 2 (.node 1 (.leaf 996230834)
 (.leaf 996262319))
 (.node 1 (.leaf 996273038)
 (.leaf 996318275))))
 (.node 4 (.node 2 (.node 1 (.leaf 996319019)
 (.leaf 996343217))
 (.node 1 (.leaf 996343524)
 (.leaf 996358178)))
 (.node 2 (.node 1 (.leaf 996366408)
 (.leaf 996399848))
 (.node 1 (.leaf 996415227)
 (.leaf 996426156)))))
 (.node 8 (.node 4 (.node 2 (.node 1 (.leaf 996459123)
 (.leaf 996465499))
 (.node 1 (.leaf 996469053)
 (.leaf 996511182)))
 (.node 2 (.node 1 (.leaf 996517247)
 (.leaf 996570493))
 (.node 1 (.leaf 996577717)
 (.leaf 996596395))))
 (.node 4 (.node 2 (.node 1 (.leaf 996598347)
 (.leaf 996624130))
 (.node 1 (.leaf 996625262)
 (.leaf 996681582)))
 (.node 2 (.node 1 (.leaf 996687701)
 (.leaf 996699397))
 (.node 1 (.leaf 996739478)
 (.leaf 996779299)))))))))))
 (.node 512 (.node 256 (.node 128 (.node 64 (.node 32 (.node 16 (.node 8 (.node 4 (.node 2 (.node 1 (.leaf 996783670)
 (.leaf 996799424))
 (.node 1 (.leaf 996805054)
 (.leaf 996820432)))
 (.node 2 (.node 1 (.leaf 996822708)
 (.leaf 996824260))
 (.node 1 (.leaf 996830678)
 (.leaf 996836377))))
 (.node 4 (.node 2 (.node 1 (.leaf 996860347)
 (.leaf 996873197))
 (.node 1 (.leaf 996894704)
 (.leaf 996922904)))
 (.node 2 (.node 1 (.leaf 996939568)
 (.leaf 996947840))
 (.node 1 (.leaf 996952404)
 (.leaf 996956883)))))
 (.node 8 (.node 4 (.node 2 (.node 1 (.leaf 996969453)
 (.leaf 996987393))
 (.node 1 (.leaf 996995097)
 (.leaf 997009237)))
 (.node 2 (.node 1 (.leaf 997053605)
 (.leaf 997068128))
 (.node 1 (.leaf 997083936)
 (.leaf 997111907))))
 (.node 4 (.node 2 (.node 1 (.leaf 997116819)
 (.leaf 997121576))
 (.node 1 (.leaf 997167337)
 (.leaf 997169284)))
 (.node 2 (.node 1 (.leaf 997191340)
 (.leaf 997218961))
 (.node 1 (.leaf 997226148)
 (.leaf 997227873))))))
 (.node 16 (.node 8 (.node 4 (.node 2 (.node 1 (.leaf 997262932)
 (.leaf 997272985))
 (.node 1 (.leaf 997290793)
 (.leaf 997336389)))
 (.node 2 (.node 1 (.leaf 997354709)
 (.leaf 997357595))
 (.node 1 (.leaf 997364670)
 (.leaf 997379303))))
 (.node 4 (.node 2 (.node 1 (.leaf 997402226)
 (.leaf 997411751))
 (.node 1 (.leaf 997450498)
 (.leaf 997469960)))
 (.node 2 (.node 1 (.leaf 997488306)
 (.leaf 997489055))
 (.node 1 (.leaf 997499960)
 (.leaf 997568345)))))
 (.node 8 (.node 4 (.node 2 (.node 1 (.leaf 997600070)
 (.leaf 997610964))
 (.node 1 (.leaf 997646176)
 (.leaf 997649661)))
 (.node 2 (.node 1 (.leaf 997654530)
 (.leaf 997657027))
 (.node 1 (.leaf 997682644)
 (.leaf 997714667))))
 (.node 4 (.node 2 (.node 1 (.leaf 997733050)
 (.leaf 997753628))
 (.node 1 (.leaf 997796378)
 (.leaf 997804207)))
 (.node 2 (.node 1 (.leaf 997818557)
 (.leaf 997832182))
 (.node 1 (.leaf 997844723)
 (.leaf 997856335)))))))
 (.node 32 (.node 16 (.node 8 (.node 4 (.node 2 (.node 1 (.leaf 997906228)
 (.leaf 997910037))
 (.node 1 (.leaf 997922972)
 (.leaf 997950699)))
 (.node 2 (.node 1 (.leaf 997952696)
 (.leaf 997965335))
 (.node 1 (.leaf 997996115)
 (.leaf 998022258))))
 (.node 4 (.node 2 (.node 1 (.leaf 998040769)
 (.leaf 998076296))
 (.node 1 (.leaf 998080828)
 (.leaf 998088269)))
 (.node 2 (.node 1 (.leaf 998109286)
 (.leaf 998141075))
 (.node 1 (.leaf 998182742)
 (.leaf 998203072)))))
 (.node 8 (.node 4 (.node 2 (.node 1 (.leaf 998214945)
 (.leaf 998218669))
 (.node 1 (.leaf 998227364)
 (.leaf 998241043)))
 (.node 2 (.node 1 (.leaf 998242916)
 (.leaf 998247056))
 (.node 1 (.leaf 998255532)
 (.leaf 998257655))))
 (.node 4 (.node 2 (.node 1 (.leaf 998258320)
 (.leaf 998261972))
 (.node 1 (.leaf 998270781)
 (.leaf 998278297)))
 (.node 2 (.node 1 (.leaf 998286454)
 (.leaf 998288737))
 (.node 1 (.leaf 998295252)
 (.leaf 998311613))))))
 (.node 16 (.node 8 (.node 4 (.node 2 (.node 1 (.leaf 998321879)
 (.leaf 998325541))
 (.node 1 (.leaf 998336948)
 (.leaf 998337096)))
 (.node 2 (.node 1 (.leaf 998342109)
 (.leaf 998347887))
 (.node 1 (.leaf 998355446)
 (.leaf 998356416))))
 (.node 4 (.node 2 (.node 1 (.leaf 998361756)
 (.leaf 998362501))
 (.node 1 (.leaf 998404028)
 (.leaf 998414667)))
 (.node 2 (.node 1 (.leaf 998419490)
 (.leaf 998423891))
 (.node 1 (.leaf 998428268)
 (.leaf 998428302)))))
 (.node 8 (.node 4 (.node 2 (.node 1 (.leaf 998435648)
 (.leaf 998455458))
 (.node 1 (.leaf 998465686)
 (.leaf 998468142)))
 (.node 2 (.node 1 (.leaf 998470080)
 (.leaf 998470819))
 (.node 1 (.leaf 998488368)
 (.leaf 998494126))))
 (.node 4 (.node 2 (.node 1 (.leaf 998504056)
 (.leaf 998516883))
 (.node 1 (.leaf 998522962)
 (.leaf 998527126)))
 (.node 2 (.node 1 (.leaf 998543432)
 (.leaf 998547611))
 (.node 1 (.leaf 998566207)
 (.leaf 998566493))))))))
 (.node 64 (.node 32 (.node 16 (.node 8 (.node 4 (.node 2 (.node 1 (.leaf 998579160)
 (.leaf 998583833))
 (.node 1 (.leaf 998594587)
 (.leaf 998608049)))
 (.node 2 (.node 1 (.leaf 998609542)
 (.leaf 998625282))
 (.node 1 (.leaf 998636771)
 (.leaf 998637141))))
 (.node 4 (.node 2 (.node 1 (.leaf 998640194)
 (.leaf 998661468))
 (.node 1 (.leaf 998667800)
 (.leaf 998681145)))
 (.node 2 (.node 1 (.leaf 998686594)
 (.leaf 998695837))
 (.node 1 (.leaf 998701861)
 (.leaf 998711409)))))
 (.node 8 (.node 4 (.node 2 (.node 1 (.leaf 998712529)
 (.leaf 998716146))
 (.node 1 (.leaf 998753532)
 (.leaf 998756133)))
 (.node 2 (.node 1 (.leaf 998756394)
 (.leaf 998766874))
 (.node 1 (.leaf 998775357)
 (.leaf 998794127))))
 (.node 4 (.node 2 (.node 1 (.leaf 998795307)
 (.leaf 998798420))
 (.node 1 (.leaf 998799579)
 (.leaf 998818485)))
 (.node 2 (.node 1 (.leaf 998824599)
 (.leaf 998849025))
 (.node 1 (.leaf 998854762)
 (.leaf 998874207))))))
 (.node 16 (.node 8 (.node 4 (.node 2 (.node 1 (.leaf 998882150)
 (.leaf 998885811))
 (.node 1 (.leaf 998897245)
 (.leaf 998897834)))
 (.node 2 (.node 1 (.leaf 998917758)
 (.leaf 998921970))
 (.node 1 (.leaf 998934201)
 (.leaf 998946331))))
 (.node 4 (.node 2 (.node 1 (.leaf 998946683)
 (.leaf 998947436))
 (.node 1 (.leaf 998950620)
 (.leaf 998956454)))
 (.node 2 (.node 1 (.leaf 998957814)
 (.leaf 998964581))
 (.node 1 (.leaf 998972034)
 (.leaf 998980177)))))
 (.node 8 (.node 4 (.node 2 (.node 1 (.leaf 998984412)
 (.leaf 998989013))
 (.node 1 (.leaf 998997367)
 (.leaf 998998545)))
 (.node 2 (.node 1 (.leaf 999000215)
 (.leaf 999008776))
 (.node 1 (.leaf 999014388)
 (.leaf 999040942))))
 (.node 4 (.node 2 (.node 1 (.leaf 999043715)
 (.leaf 999048501))
 (.node 1 (.leaf 999049327)
 (.leaf 999054849)))
 (.node 2 (.node 1 (.leaf 999056791)
 (.leaf 999083055))
 (.node 1 (.leaf 999085119)
 (.leaf 999091528)))))))
 (.node 32 (.node 16 (.node 8 (.node 4 (.node 2 (.node 1 (.leaf 999102595)
 (.leaf 999105684))
 (.node 1 (.leaf 999116385)
 (.leaf 999127748)))
 (.node 2 (.node 1 (.leaf 999129205)
 (.leaf 999133135))
 (.node 1 (.leaf 999150640)
 (.leaf 999153486))))
 (.node 4 (.node 2 (.node 1 (.leaf 999157200)
 (.leaf 999179372))
 (.node 1 (.leaf 999207626)
 (.leaf 999207754)))
 (.node 2 (.node 1 (.leaf 999213177)
 (.leaf 999214365))
 (.node 1 (.leaf 999216953)
 (.leaf 999220111)))))
 (.node 8 (.node 4 (.node 2 (.node 1 (.leaf 999225736)
 (.leaf 999270559))
 (.node 1 (.leaf 999271934)
 (.leaf 999294939)))
 (.node 2 (.node 1 (.leaf 999299857)
 (.leaf 999308642))
 (.node 1 (.leaf 999314791)
 (.leaf 999318765))))
 (.node 4 (.node 2 (.node 1 (.leaf 999326392)
 (.leaf 999329382))
 (.node 1 (.leaf 999333222)
 (.leaf 999368924)))
 (.node 2 (.node 1 (.leaf 999375907)
 (.leaf 999377296))
 (.node 1 (.leaf 999389683)
 (.leaf 999395279))))))
 (.node 16 (.node 8 (.node 4 (.node 2 (.node 1 (.leaf 999402905)
 (.leaf 999422513))
 (.node 1 (.leaf 999441904)
 (.leaf 999451501)))
 (.node 2 (.node 1 (.leaf 999453946)
 (.leaf 999454982))
 (.node 1 (.leaf 999468896)
 (.leaf 999499833))))
 (.node 4 (.node 2 (.node 1 (.leaf 999509468)
 (.leaf 999514874))
 (.node 1 (.leaf 999516470)
 (.leaf 999534037)))
 (.node 2 (.node 1 (.leaf 999561051)
 (.leaf 999565259))
 (.node 1 (.leaf 999579846)
 (.leaf 999599526)))))
 (.node 8 (.node 4 (.node 2 (.node 1 (.leaf 999600186)
 (.leaf 999604680))
 (.node 1 (.leaf 999616244)
 (.leaf 999625299)))
 (.node 2 (.node 1 (.leaf 999632544)
 (.leaf 999636170))
 (.node 1 (.leaf 999646459)
 (.leaf 999657974))))
 (.node 4 (.node 2 (.node 1 (.leaf 999666596)
 (.leaf 999682056))
 (.node 1 (.leaf 999683989)
 (.leaf 999700635)))
 (.node 2 (.node 1 (.leaf 999701837)
 (.leaf 999702087))
 (.node 1 (.leaf 999708526)
 (.leaf 999714759)))))))))
 (.node 128 (.node 64 (.node 32 (.node 16 (.node 8 (.node 4 (.node 2 (.node 1 (.leaf 999719199)
 (.leaf 999737174))
 (.node 1 (.leaf 999773132)
 (.leaf 999782766)))
 (.node 2 (.node 1 (.leaf 999784791)
 (.leaf 999787281))
 (.node 1 (.leaf 999807625)
 (.leaf 999810886))))
 (.node 4 (.node 2 (.node 1 (.leaf 999828424)
 (.leaf 999828742))
 (.node 1 (.leaf 999856605)
 (.leaf 999876259)))
 (.node 2 (.node 1 (.leaf 999885108)
 (.leaf 999885304))
 (.node 1 (.leaf 999901993)
 (.leaf 999906665)))))
 (.node 8 (.node 4 (.node 2 (.node 1 (.leaf 999916254)
 (.leaf 999927139))
 (.node 1 (.leaf 999930253)
 (.leaf 999941916)))
 (.node 2 (.node 1 (.leaf 999943218)
 (.leaf 999967644))
 (.node 1 (.leaf 999986949)
 (.leaf 1000002787))))
 (.node 4 (.node 2 (.node 1 (.leaf 1000005786)
 (.leaf 1000028095))
 (.node 1 (.leaf 1000031130)
 (.leaf 1000046690)))
 (.node 2 (.node 1 (.leaf 1000061520)
 (.leaf 1000063852))
 (.node 1 (.leaf 1000073245)
 (.leaf 1000076477))))))
 (.node 16 (.node 8 (.node 4 (.node 2 (.node 1 (.leaf 1000077270)
 (.leaf 1000083261))
 (.node 1 (.leaf 1000123012)
 (.leaf 1000126451)))
 (.node 2 (.node 1 (.leaf 1000143274)
 (.leaf 1000157971))
 (.node 1 (.leaf 1000158402)
 (.leaf 1000162735))))
 (.node 4 (.node 2 (.node 1 (.leaf 1000170759)
 (.leaf 1000190622))
 (.node 1 (.leaf 1000217145)
 (.leaf 1000219744)))
 (.node 2 (.node 1 (.leaf 1000219875)
 (.leaf 1000244268))
 (.node 1 (.leaf 1000252062)
 (.leaf 1000256405)))))
 (.node 8 (.node 4 (.node 2 (.node 1 (.leaf 1000257088)
 (.leaf 1000261926))
 (.node 1 (.leaf 1000285235)
 (.leaf 1000321530)))
 (.node 2 (.node 1 (.leaf 1000323843)
 (.leaf 1000327780))
 (.node 1 (.leaf 1000327924)
 (.leaf 1000330886))))
 (.node 4 (.node 2 (.node 1 (.leaf 1000334772)
 (.leaf 1000342356))
 (.node 1 (.leaf 1000358133)
 (.leaf 1000358964)))
 (.node 2 (.node 1 (.leaf 1000361752)
 (.leaf 1000374385))
 (.node 1 (.leaf 1000384193)
 (.leaf 1000390822)))))))
 (.node 32 (.node 16 (.node 8 (.node 4 (.node 2 (.node 1 (.leaf 1000392977)
 (.leaf 1000405129))
 (.node 1 (.leaf 1000413767)
 (.leaf 1000428094)))
 (.node 2 (.node 1 (.leaf 1000428588)
 (.leaf 1000429554))
 (.node 1 (.leaf 1000442990)
 (.leaf 1000457249))))
 (.node 4 (.node 2 (.node 1 (.leaf 1000463700)
 (.leaf 1000463855))
 (.node 1 (.leaf 1000472337)
 (.leaf 1000484167)))
 (.node 2 (.node 1 (.leaf 1000501866)
 (.leaf 1000505022))
 (.node 1 (.leaf 1000505857)
 (.leaf 1000510223)))))
 (.node 8 (.node 4 (.node 2 (.node 1 (.leaf 1000511319)
 (.leaf 1000522633))
 (.node 1 (.leaf 1000536524)
 (.leaf 1000541099)))
 (.node 2 (.node 1 (.leaf 1000541154)
 (.leaf 1000571399))
 (.node 1 (.leaf 1000588033)
 (.leaf 1000592294))))
 (.node 4 (.node 2 (.node 1 (.leaf 1000599581)
 (.leaf 1000601701))
 (.node 1 (.leaf 1000611033)
 (.leaf 1000630825)))
 (.node 2 (.node 1 (.leaf 1000640174)
 (.leaf 1000659480))
 (.node 1 (.leaf 1000666083)
 (.leaf 1000674781))))))
 (.node 16 (.node 8 (.node 4 (.node 2 (.node 1 (.leaf 1000682168)
 (.leaf 1000685124))
 (.node 1 (.leaf 1000687432)
 (.leaf 1000694971)))
 (.node 2 (.node 1 (.leaf 1000720578)
 (.leaf 1000720888))
 (.node 1 (.leaf 1000765775)
 (.leaf 1000774214))))
 (.node 4 (.node 2 (.node 1 (.leaf 1000774615)
 (.leaf 1000780435))
 (.node 1 (.leaf 1000783841)
 (.leaf 1000786271)))
 (.node 2 (.node 1 (.leaf 1000796126)
 (.leaf 1000803066))
 (.node 1 (.leaf 1000826302)
 (.leaf 1000832491)))))
 (.node 8 (.node 4 (.node 2 (.node 1 (.leaf 1000846117)
 (.leaf 1000848374))
 (.node 1 (.leaf 1000862687)
 (.leaf 1000878310)))
 (.node 2 (.node 1 (.leaf 1000894306)
 (.leaf 1000912519))
 (.node 1 (.leaf 1000912802)
 (.leaf 1000913390))))
 (.node 4 (.node 2 (.node 1 (.leaf 1000914528)
 (.leaf 1000926725))
 (.node 1 (.leaf 1000928517)
 (.leaf 1000978834)))
 (.node 2 (.node 1 (.leaf 1000982344)
 (.leaf 1001013035))
 (.node 1 (.leaf 1001016974)
 (.leaf 1001020950))))))))
 (.node 64 (.node 32 (.node 16 (.node 8 (.node 4 (.node 2 (.node 1 (.leaf 1001023432)
 (.leaf 1001030198))
 (.node 1 (.leaf 1001034089)
 (.leaf 1001038349)))
 (.node 2 (.node 1 (.leaf 1001051862)
 (.leaf 1001055278))
 (.node 1 (.leaf 1001071088)
 (.leaf 1001082098))))
 (.node 4 (.node 2 (.node 1 (.leaf 1001085815)
 (.leaf 1001099734))
 (.node 1 (.leaf 1001104516)
 (.leaf 1001123127)))
 (.node 2 (.node 1 (.leaf 1001143327)
 (.leaf 1001158356))
 (.node 1 (.leaf 1001164214)
 (.leaf 1001183262)))))
 (.node 8 (.node 4 (.node 2 (.node 1 (.leaf 1001183511)
 (.leaf 1001188194))
 (.node 1 (.leaf 1001188680)
 (.leaf 1001196184)))
 (.node 2 (.node 1 (.leaf 1001202688)
 (.leaf 1001214974))
 (.node 1 (.leaf 1001241884)
 (.leaf 1001253456))))
 (.node 4 (.node 2 (.node 1 (.leaf 1001266579)
 (.leaf 1001271080))
 (.node 1 (.leaf 1001273300)
 (.leaf 1001279940)))
 (.node 2 (.node 1 (.leaf 1001286333)
 (.leaf 1001297222))
 (.node 1 (.leaf 1001301738)
 (.leaf 1001310000))))))
 (.node 16 (.node 8 (.node 4 (.node 2 (.node 1 (.leaf 1001342511)
 (.leaf 1001347865))
 (.node 1 (.leaf 1001354960)
 (.leaf 1001363109)))
 (.node 2 (.node 1 (.leaf 1001365910)
 (.leaf 1001373587))
 (.node 1 (.leaf 1001400474)
 (.leaf 1001409286))))
 (.node 4 (.node 2 (.node 1 (.leaf 1001418168)
 (.leaf 1001426030))
 (.node 1 (.leaf 1001426589)
 (.leaf 1001447570)))
 (.node 2 (.node 1 (.leaf 1001469695)
 (.leaf 1001473215))
 (.node 1 (.leaf 1001490537)
 (.leaf 1001495936)))))
 (.node 8 (.node 4 (.node 2 (.node 1 (.leaf 1001507307)
 (.leaf 1001512320))
 (.node 1 (.leaf 1001524496)
 (.leaf 1001545596)))
 (.node 2 (.node 1 (.leaf 1001554020)
 (.leaf 1001556668))
 (.node 1 (.leaf 1001568344)
 (.leaf 1001590072))))
 (.node 4 (.node 2 (.node 1 (.leaf 1001596710)
 (.leaf 1001616313))
 (.node 1 (.leaf 1001624463)
 (.leaf 1001630210)))
 (.node 2 (.node 1 (.leaf 1001642964)
 (.leaf 1001664791))
 (.node 1 (.leaf 1001669613)
 (.leaf 1001675003)))))))
 (.node 32 (.node 16 (.node 8 (.node 4 (.node 2 (.node 1 (.leaf 1001693961)
 (.leaf 1001694053))
 (.node 1 (.leaf 1001702591)
 (.leaf 1001731975)))
 (.node 2 (.node 1 (.leaf 1001750498)
 (.leaf 1001761982))
 (.node 1 (.leaf 1001764811)
 (.leaf 1001765204))))
 (.node 4 (.node 2 (.node 1 (.leaf 1001767299)
 (.leaf 1001773588))
 (.node 1 (.leaf 1001775162)
 (.leaf 1001777046)))
 (.node 2 (.node 1 (.leaf 1001814205)
 (.leaf 1001838236))
 (.node 1 (.leaf 1001838444)
 (.leaf 1001839395)))))
 (.node 8 (.node 4 (.node 2 (.node 1 (.leaf 1001843266)
 (.leaf 1001848055))
 (.node 1 (.leaf 1001851248)
 (.leaf 1001854435)))
 (.node 2 (.node 1 (.leaf 1001880362)
 (.leaf 1001887883))
 (.node 1 (.leaf 1001890164)
 (.leaf 1001905928))))
 (.node 4 (.node 2 (.node 1 (.leaf 1001913102)
 (.leaf 1001924926))
 (.node 1 (.leaf 1001931651)
 (.leaf 1001938429)))
 (.node 2 (.node 1 (.leaf 1001942809)
 (.leaf 1001982245))
 (.node 1 (.leaf 1001987377)
 (.leaf 1001987717))))))
 (.node 16 (.node 8 (.node 4 (.node 2 (.node 1 (.leaf 1001989849)
 (.leaf 1001990024))
 (.node 1 (.leaf 1001992638)
 (.leaf 1002017375)))
 (.node 2 (.node 1 (.leaf 1002019154)
 (.leaf 1002055179))
 (.node 1 (.leaf 1002068526)
 (.leaf 1002102675))))
 (.node 4 (.node 2 (.node 1 (.leaf 1002112229)
 (.leaf 1002119309))
 (.node 1 (.leaf 1002121217)
 (.leaf 1002126079)))
 (.node 2 (.node 1 (.leaf 1002133091)
 (.leaf 1002141050))
 (.node 1 (.leaf 1002149182)
 (.leaf 1002151923)))))
 (.node 8 (.node 4 (.node 2 (.node 1 (.leaf 1002170123)
 (.leaf 1002185063))
 (.node 1 (.leaf 1002197621)
 (.leaf 1002218417)))
 (.node 2 (.node 1 (.leaf 1002220358)
 (.leaf 1002231874))
 (.node 1 (.leaf 1002231956)
 (.leaf 1002252478))))
 (.node 4 (.node 2 (.node 1 (.leaf 1002271949)
 (.leaf 1002288618))
 (.node 1 (.leaf 1002299671)
 (.leaf 1002316654)))
 (.node 2 (.node 1 (.leaf 1002321594)
 (.leaf 1002324919))
 (.node 1 (.leaf 1002330520)
 (.leaf 1002333407))))))))))
 (.node 256 (.node 128 (.node 64 (.node 32 (.node 16 (.node 8 (.node 4 (.node 2 (.node 1 (.leaf 1002337357)
 (.leaf 1002343202))
 (.node 1 (.leaf 1002379296)
 (.leaf 1002384312)))
 (.node 2 (.node 1 (.leaf 1002392449)
 (.leaf 1002429392))
 (.node 1 (.leaf 1002430577)
 (.leaf 1002435107))))
 (.node 4 (.node 2 (.node 1 (.leaf 1002437524)
 (.leaf 1002442711))
 (.node 1 (.leaf 1002458611)
 (.leaf 1002459608)))
 (.node 2 (.node 1 (.leaf 1002465086)
 (.leaf 1002467979))
 (.node 1 (.leaf 1002492381)
 (.leaf 1002492713)))))
 (.node 8 (.node 4 (.node 2 (.node 1 (.leaf 1002520125)
 (.leaf 1002539548))
 (.node 1 (.leaf 1002544394)
 (.leaf 1002574411)))
 (.node 2 (.node 1 (.leaf 1002577772)
 (.leaf 1002584113))
 (.node 1 (.leaf 1002585292)
 (.leaf 1002595656))))
 (.node 4 (.node 2 (.node 1 (.leaf 1002615879)
 (.leaf 1002632651))
 (.node 1 (.leaf 1002654102)
 (.leaf 1002673280)))
 (.node 2 (.node 1 (.leaf 1002677846)
 (.leaf 1002678170))
 (.node 1 (.leaf 1002693597)
 (.leaf 1002694128))))))
 (.node 16 (.node 8 (.node 4 (.node 2 (.node 1 (.leaf 1002701363)
 (.leaf 1002714530))
 (.node 1 (.leaf 1002723848)
 (.leaf 1002736711)))
 (.node 2 (.node 1 (.leaf 1002750892)
 (.leaf 1002773980))
 (.node 1 (.leaf 1002774341)
 (.leaf 1002777248))))
 (.node 4 (.node 2 (.node 1 (.leaf 1002788024)
 (.leaf 1002799305))
 (.node 1 (.leaf 1002801764)
 (.leaf 1002807495)))
 (.node 2 (.node 1 (.leaf 1002837235)
 (.leaf 1002847453))
 (.node 1 (.leaf 1002856570)
 (.leaf 1002868475)))))
 (.node 8 (.node 4 (.node 2 (.node 1 (.leaf 1002872583)
 (.leaf 1002877884))
 (.node 1 (.leaf 1002882413)
 (.leaf 1002936881)))
 (.node 2 (.node 1 (.leaf 1002939771)
 (.leaf 1002940867))
 (.node 1 (.leaf 1002958389)
 (.leaf 1002973733))))
 (.node 4 (.node 2 (.node 1 (.leaf 1002984202)
 (.leaf 1002986440))
 (.node 1 (.leaf 1002988254)
 (.leaf 1003001214)))
 (.node 2 (.node 1 (.leaf 1003007018)
 (.leaf 1003027285))
 (.node 1 (.leaf 1003036714)
 (.leaf 1003042634)))))))
 (.node 32 (.node 16 (.node 8 (.node 4 (.node 2 (.node 1 (.leaf 1003077502)
 (.leaf 1003078927))
 (.node 1 (.leaf 1003114426)
 (.leaf 1003115409)))
 (.node 2 (.node 1 (.leaf 1003115883)
 (.leaf 1003123253))
 (.node 1 (.leaf 1003124919)
 (.leaf 1003129179))))
 (.node 4 (.node 2 (.node 1 (.leaf 1003135087)
 (.leaf 1003152650))
 (.node 1 (.leaf 1003158770)
 (.leaf 1003162018)))
 (.node 2 (.node 1 (.leaf 1003168659)
 (.leaf 1003175212))
 (.node 1 (.leaf 1003183973)
 (.leaf 1003200541)))))
 (.node 8 (.node 4 (.node 2 (.node 1 (.leaf 1003202426)
 (.leaf 1003206719))
 (.node 1 (.leaf 1003218299)
 (.leaf 1003221317)))
 (.node 2 (.node 1 (.leaf 1003228229)
 (.leaf 1003248639))
 (.node 1 (.leaf 1003249237)
 (.leaf 1003266256))))
 (.node 4 (.node 2 (.node 1 (.leaf 1003269758)
 (.leaf 1003293227))
 (.node 1 (.leaf 1003299855)
 (.leaf 1003305709)))
 (.node 2 (.node 1 (.leaf 1003309026)
 (.leaf 1003323597))
 (.node 1 (.leaf 1003344609)
 (.leaf 1003344830))))))
 (.node 16 (.node 8 (.node 4 (.node 2 (.node 1 (.leaf 1003368668)
 (.leaf 1003369581))
 (.node 1 (.leaf 1003377491)
 (.leaf 1003385135)))
 (.node 2 (.node 1 (.leaf 1003395353)
 (.leaf 1003400844))
 (.node 1 (.leaf 1003405354)
 (.leaf 1003408666))))
 (.node 4 (.node 2 (.node 1 (.leaf 1003418879)
 (.leaf 1003426748))
 (.node 1 (.leaf 1003448765)
 (.leaf 1003466555)))
 (.node 2 (.node 1 (.leaf 1003474375)
 (.leaf 1003481458))
 (.node 1 (.leaf 1003498057)
 (.leaf 1003509930)))))
 (.node 8 (.node 4 (.node 2 (.node 1 (.leaf 1003520444)
 (.leaf 1003541772))
 (.node 1 (.leaf 1003544064)
 (.leaf 1003550020)))
 (.node 2 (.node 1 (.leaf 1003568941)
 (.leaf 1003572451))
 (.node 1 (.leaf 1003585432)
 (.leaf 1003593711))))
 (.node 4 (.node 2 (.node 1 (.leaf 1003635581)
 (.leaf 1003638591))
 (.node 1 (.leaf 1003646087)
 (.leaf 1003681771)))
 (.node 2 (.node 1 (.leaf 1003696711)
 (.leaf 1003724231))
 (.node 1 (.leaf 1003730653)
 (.leaf 1003754452))))))))
 (.node 64 (.node 32 (.node 16 (.node 8 (.node 4 (.node 2 (.node 1 (.leaf 1003759623)
 (.leaf 1003759896))
 (.node 1 (.leaf 1003765935)
 (.leaf 1003786095)))
 (.node 2 (.node 1 (.leaf 1003798141)
 (.leaf 1003802358))
 (.node 1 (.leaf 1003812251)
 (.leaf 1003813209))))
 (.node 4 (.node 2 (.node 1 (.leaf 1003813286)
 (.leaf 1003828972))
 (.node 1 (.leaf 1003837923)
 (.leaf 1003849572)))
 (.node 2 (.node 1 (.leaf 1003878987)
 (.leaf 1003883566))
 (.node 1 (.leaf 1003884465)
 (.leaf 1003893676)))))
 (.node 8 (.node 4 (.node 2 (.node 1 (.leaf 1003905376)
 (.leaf 1003905388))
 (.node 1 (.leaf 1003910342)
 (.leaf 1003910732)))
 (.node 2 (.node 1 (.leaf 1003930096)
 (.leaf 1003965033))
 (.node 1 (.leaf 1003983707)
 (.leaf 1003991331))))
 (.node 4 (.node 2 (.node 1 (.leaf 1003999893)
 (.leaf 1004012404))
 (.node 1 (.leaf 1004021914)
 (.leaf 1004032431)))
 (.node 2 (.node 1 (.leaf 1004061715)
 (.leaf 1004064009))
 (.node 1 (.leaf 1004078240)
 (.leaf 1004102670))))))
 (.node 16 (.node 8 (.node 4 (.node 2 (.node 1 (.leaf 1004135989)
 (.leaf 1004143830))
 (.node 1 (.leaf 1004146332)
 (.leaf 1004153349)))
 (.node 2 (.node 1 (.leaf 1004154560)
 (.leaf 1004183687))
 (.node 1 (.leaf 1004196129)
 (.leaf 1004205897))))
 (.node 4 (.node 2 (.node 1 (.leaf 1004230684)
 (.leaf 1004230722))
 (.node 1 (.leaf 1004234984)
 (.leaf 1004253047)))
 (.node 2 (.node 1 (.leaf 1004255964)
 (.leaf 1004278862))
 (.node 1 (.leaf 1004297994)
 (.leaf 1004317231)))))
 (.node 8 (.node 4 (.node 2 (.node 1 (.leaf 1004346832)
 (.leaf 1004364469))
 (.node 1 (.leaf 1004373183)
 (.leaf 1004387592)))
 (.node 2 (.node 1 (.leaf 1004402451)
 (.leaf 1004405913))
 (.node 1 (.leaf 1004413704)
 (.leaf 1004414238))))
 (.node 4 (.node 2 (.node 1 (.leaf 1004429780)
 (.leaf 1004445407))
 (.node 1 (.leaf 1004452173)
 (.leaf 1004491406)))
 (.node 2 (.node 1 (.leaf 1004496494)
 (.leaf 1004507159))
 (.node 1 (.leaf 1004509575)
 (.leaf 1004510077)))))))
 (.node 32 (.node 16 (.node 8 (.node 4 (.node 2 (.node 1 (.leaf 1004531951)
 (.leaf 1004538723))
 (.node 1 (.leaf 1004549140)
 (.leaf 1004549264)))
 (.node 2 (.node 1 (.leaf 1004560252)
 (.leaf 1004572023))
 (.node 1 (.leaf 1004582059)
 (.leaf 1004590014))))
 (.node 4 (.node 2 (.node 1 (.leaf 1004598111)
 (.leaf 1004609486))
 (.node 1 (.leaf 1004650927)
 (.leaf 1004685551)))
 (.node 2 (.node 1 (.leaf 1004706883)
 (.leaf 1004715510))
 (.node 1 (.leaf 1004719960)
 (.leaf 1004731825)))))
 (.node 8 (.node 4 (.node 2 (.node 1 (.leaf 1004732132)
 (.leaf 1004753049))
 (.node 1 (.leaf 1004755016)
 (.leaf 1004764734)))
 (.node 2 (.node 1 (.leaf 1004783491)
 (.leaf 1004788456))
 (.node 1 (.leaf 1004814764)
 (.leaf 1004815241))))
 (.node 4 (.node 2 (.node 1 (.leaf 1004847731)
 (.leaf 1004857661))
 (.node 1 (.leaf 1004861751)
 (.leaf 1004870577)))
 (.node 2 (.node 1 (.leaf 1004883902)
 (.leaf 1004886516))
 (.node 1 (.leaf 1004886896)
 (.leaf 1004899790))))))
 (.node 16 (.node 8 (.node 4 (.node 2 (.node 1 (.leaf 1004934637)
 (.leaf 1004966325))
 (.node 1 (.leaf 1004985003)
 (.leaf 1004986849)))
 (.node 2 (.node 1 (.leaf 1004986955)
 (.leaf 1004996108))
 (.node 1 (.leaf 1005012738)
 (.leaf 1005013870))))
 (.node 4 (.node 2 (.node 1 (.leaf 1005023594)
 (.leaf 1005063503))
 (.node 1 (.leaf 1005088005)
 (.leaf 1005092403)))
 (.node 2 (.node 1 (.leaf 1005128086)
 (.leaf 1005151893))
 (.node 1 (.leaf 1005164408)
 (.leaf 1005167907)))))
 (.node 8 (.node 4 (.node 2 (.node 1 (.leaf 1005172278)
 (.leaf 1005188032))
 (.node 1 (.leaf 1005200635)
 (.leaf 1005209040)))
 (.node 2 (.node 1 (.leaf 1005212868)
 (.leaf 1005229142))
 (.node 1 (.leaf 1005245546)
 (.leaf 1005248717))))
 (.node 4 (.node 2 (.node 1 (.leaf 1005259248)
 (.leaf 1005261805))
 (.node 1 (.leaf 1005265761)
 (.leaf 1005274430)))
 (.node 2 (.node 1 (.leaf 1005297092)
 (.leaf 1005308362))
 (.node 1 (.leaf 1005311621)
 (.leaf 1005336448)))))))))
 (.node 128 (.node 64 (.node 32 (.node 16 (.node 8 (.node 4 (.node 2 (.node 1 (.leaf 1005341012)
 (.leaf 1005358061))
 (.node 1 (.leaf 1005363998)
 (.leaf 1005376001)))
 (.node 2 (.node 1 (.leaf 1005383705)
 (.leaf 1005389594))
 (.node 1 (.leaf 1005397845)
 (.leaf 1005404890))))
 (.node 4 (.node 2 (.node 1 (.leaf 1005425439)
 (.leaf 1005433254))
 (.node 1 (.leaf 1005442213)
 (.leaf 1005457760)))
 (.node 2 (.node 1 (.leaf 1005472544)
 (.leaf 1005472882))
 (.node 1 (.leaf 1005474686)
 (.leaf 1005499980)))))
 (.node 8 (.node 4 (.node 2 (.node 1 (.leaf 1005505427)
 (.leaf 1005542173))
 (.node 1 (.leaf 1005557892)
 (.leaf 1005558274)))
 (.node 2 (.node 1 (.leaf 1005579948)
 (.leaf 1005607569))
 (.node 1 (.leaf 1005610574)
 (.leaf 1005614756))))
 (.node 4 (.node 2 (.node 1 (.leaf 1005626868)
 (.leaf 1005645820))
 (.node 1 (.leaf 1005650049)
 (.leaf 1005661593)))
 (.node 2 (.node 1 (.leaf 1005679401)
 (.leaf 1005714269))
 (.node 1 (.leaf 1005724997)
 (.leaf 1005735570))))))
 (.node 16 (.node 8 (.node 4 (.node 2 (.node 1 (.leaf 1005746203)
 (.leaf 1005767679))
 (.node 1 (.leaf 1005767911)
 (.leaf 1005784730)))
 (.node 2 (.node 1 (.leaf 1005800359)
 (.leaf 1005826642))
 (.node 1 (.leaf 1005827577)
 (.leaf 1005839106))))
 (.node 4 (.node 2 (.node 1 (.leaf 1005858568)
 (.leaf 1005876914))
 (.node 1 (.leaf 1005877663)
 (.leaf 1005888568)))
 (.node 2 (.node 1 (.leaf 1005904373)
 (.leaf 1005910736))
 (.node 1 (.leaf 1005921896)
 (.leaf 1005929226)))))
 (.node 8 (.node 4 (.node 2 (.node 1 (.leaf 1005954178)
 (.leaf 1005971378))
 (.node 1 (.leaf 1005998971)
 (.leaf 1006014604)))
 (.node 2 (.node 1 (.leaf 1006018582)
 (.leaf 1006032849))
 (.node 1 (.leaf 1006034784)
 (.leaf 1006038269))))
 (.node 4 (.node 2 (.node 1 (.leaf 1006040022)
 (.leaf 1006071252))
 (.node 1 (.leaf 1006084300)
 (.leaf 1006089521)))
 (.node 2 (.node 1 (.leaf 1006095381)
 (.leaf 1006111386))
 (.node 1 (.leaf 1006117697)
 (.leaf 1006121658)))))))
 (.node 32 (.node 16 (.node 8 (.node 4 (.node 2 (.node 1 (.leaf 1006142236)
 (.leaf 1006152013))
 (.node 1 (.leaf 1006172688)
 (.leaf 1006184637)))
 (.node 2 (.node 1 (.leaf 1006184986)
 (.leaf 1006207165))
 (.node 1 (.leaf 1006219301)
 (.leaf 1006220790))))
 (.node 4 (.node 2 (.node 1 (.leaf 1006233331)
 (.leaf 1006244943))
 (.node 1 (.leaf 1006245774)
 (.leaf 1006266316)))
 (.node 2 (.node 1 (.leaf 1006269590)
 (.leaf 1006292906))
 (.node 1 (.leaf 1006294836)
 (.leaf 1006298645)))))
 (.node 8 (.node 4 (.node 2 (.node 1 (.leaf 1006300561)
 (.leaf 1006308841))
 (.node 1 (.leaf 1006311580)
 (.leaf 1006323457)))
 (.node 2 (.node 1 (.leaf 1006339307)
 (.leaf 1006341304))
 (.node 1 (.leaf 1006353943)
 (.leaf 1006384723))))
 (.node 4 (.node 2 (.node 1 (.leaf 1006410866)
 (.leaf 1006429377))
 (.node 1 (.leaf 1006430234)
 (.leaf 1006442213)))
 (.node 2 (.node 1 (.leaf 1006442527)
 (.leaf 1006448593))
 (.node 1 (.leaf 1006464904)
 (.leaf 1006475893))))))
 (.node 16 (.node 8 (.node 4 (.node 2 (.node 1 (.leaf 1006497894)
 (.leaf 1006560501))
 (.node 1 (.leaf 1006571350)
 (.leaf 1006591680)))
 (.node 2 (.node 1 (.leaf 1006592059)
 (.leaf 1006607277))
 (.node 1 (.leaf 1006623261)
 (.leaf 1006631524))))
 (.node 4 (.node 2 (.node 1 (.leaf 1006644140)
 (.leaf 1006646928))
 (.node 1 (.leaf 1006650580)
 (.leaf 1006662990)))
 (.node 2 (.node 1 (.leaf 1006677345)
 (.leaf 1006680207))
 (.node 1 (.leaf 1006683171)
 (.leaf 1006686158)))))
 (.node 8 (.node 4 (.node 2 (.node 1 (.leaf 1006697487)
 (.leaf 1006699969))
 (.node 1 (.leaf 1006700221)
 (.leaf 1006710487)))
 (.node 2 (.node 1 (.leaf 1006714149)
 (.leaf 1006721311))
 (.node 1 (.leaf 1006730717)
 (.leaf 1006732104))))
 (.node 4 (.node 2 (.node 1 (.leaf 1006736495)
 (.leaf 1006737627))
 (.node 1 (.leaf 1006744054)
 (.leaf 1006750364)))
 (.node 2 (.node 1 (.leaf 1006751109)
 (.leaf 1006757746))
 (.node 1 (.leaf 1006758956)
 (.leaf 1006780484))))))))
 (.node 64 (.node 32 (.node 16 (.node 8 (.node 4 (.node 2 (.node 1 (.leaf 1006780493)
 (.leaf 1006783957))
 (.node 1 (.leaf 1006803275)
 (.leaf 1006812499)))
 (.node 2 (.node 1 (.leaf 1006816876)
 (.leaf 1006816910))
 (.node 1 (.leaf 1006817294)
 (.leaf 1006839467))))
 (.node 4 (.node 2 (.node 1 (.leaf 1006844066)
 (.leaf 1006856750))
 (.node 1 (.leaf 1006858688)
 (.leaf 1006874875)))
 (.node 2 (.node 1 (.leaf 1006881460)
 (.leaf 1006882734))
 (.node 1 (.leaf 1006902006)
 (.leaf 1006905491)))))
 (.node 8 (.node 4 (.node 2 (.node 1 (.leaf 1006911570)
 (.leaf 1006916170))
 (.node 1 (.leaf 1006919262)
 (.leaf 1006945064)))
 (.node 2 (.node 1 (.leaf 1006954815)
 (.leaf 1006955101))
 (.node 1 (.leaf 1006957455)
 (.leaf 1006967768))))
 (.node 4 (.node 2 (.node 1 (.leaf 1006970447)
 (.leaf 1006972441))
 (.node 1 (.leaf 1006996657)
 (.leaf 1007010298)))
 (.node 2 (.node 1 (.leaf 1007013890)
 (.leaf 1007018059))
 (.node 1 (.leaf 1007020045)
 (.leaf 1007025379))))))
 (.node 16 (.node 8 (.node 4 (.node 2 (.node 1 (.leaf 1007027752)
 (.leaf 1007056408))
 (.node 1 (.leaf 1007069753)
 (.leaf 1007070892)))
 (.node 2 (.node 1 (.leaf 1007075202)
 (.leaf 1007077207))
 (.node 1 (.leaf 1007078940)
 (.leaf 1007085494))))
 (.node 4 (.node 2 (.node 1 (.leaf 1007090469)
 (.leaf 1007095312))
 (.node 1 (.leaf 1007100017)
 (.leaf 1007101137)))
 (.node 2 (.node 1 (.leaf 1007104754)
 (.leaf 1007104782))
 (.node 1 (.leaf 1007123015)
 (.leaf 1007123084)))))
 (.node 8 (.node 4 (.node 2 (.node 1 (.leaf 1007142140)
 (.leaf 1007143050))
 (.node 1 (.leaf 1007145844)
 (.leaf 1007148814)))
 (.node 2 (.node 1 (.leaf 1007157930)
 (.leaf 1007168500))
 (.node 1 (.leaf 1007176447)
 (.leaf 1007182735))))
 (.node 4 (.node 2 (.node 1 (.leaf 1007183915)
 (.leaf 1007187028))
 (.node 1 (.leaf 1007188187)
 (.leaf 1007207093)))
 (.node 2 (.node 1 (.leaf 1007213207)
 (.leaf 1007216259))
 (.node 1 (.leaf 1007262815)
 (.leaf 1007270758)))))))
 (.node 32 (.node 16 (.node 8 (.node 4 (.node 2 (.node 1 (.leaf 1007285853)
 (.leaf 1007286442))
 (.node 1 (.leaf 1007287370)
 (.leaf 1007288507)))
 (.node 2 (.node 1 (.leaf 1007310578)
 (.leaf 1007322809))
 (.node 1 (.leaf 1007326935)
 (.leaf 1007330218))))
 (.node 4 (.node 2 (.node 1 (.leaf 1007335291)
 (.leaf 1007339228))
 (.node 1 (.leaf 1007340340)
 (.leaf 1007343077)))
 (.node 2 (.node 1 (.leaf 1007344930)
 (.leaf 1007345062))
 (.node 1 (.leaf 1007352658)
 (.leaf 1007353125)))))
 (.node 8 (.node 4 (.node 2 (.node 1 (.leaf 1007362644)
 (.leaf 1007367120))
 (.node 1 (.leaf 1007368785)
 (.leaf 1007385975)))
 (.node 2 (.node 1 (.leaf 1007388823)
 (.leaf 1007391641))
 (.node 1 (.leaf 1007402996)
 (.leaf 1007403938))))
 (.node 4 (.node 2 (.node 1 (.leaf 1007408321)
 (.leaf 1007429550))
 (.node 1 (.leaf 1007432484)
 (.leaf 1007437109)))
 (.node 2 (.node 1 (.leaf 1007438730)
 (.leaf 1007445399))
 (.node 1 (.leaf 1007458332)
 (.leaf 1007459199))))))
 (.node 16 (.node 8 (.node 4 (.node 2 (.node 1 (.leaf 1007464431)
 (.leaf 1007470170))
 (.node 1 (.leaf 1007471663)
 (.leaf 1007473727)))
 (.node 2 (.node 1 (.leaf 1007480136)
 (.leaf 1007491203))
 (.node 1 (.leaf 1007494292)
 (.leaf 1007502547))))
 (.node 4 (.node 2 (.node 1 (.leaf 1007516356)
 (.leaf 1007516827))
 (.node 1 (.leaf 1007517813)
 (.leaf 1007521743)))
 (.node 2 (.node 1 (.leaf 1007526449)
 (.leaf 1007542094))
 (.node 1 (.leaf 1007543676)
 (.leaf 1007545808)))))
 (.node 8 (.node 4 (.node 2 (.node 1 (.leaf 1007556397)
 (.leaf 1007556506))
 (.node 1 (.leaf 1007577297)
 (.leaf 1007596234)))
 (.node 2 (.node 1 (.leaf 1007596998)
 (.leaf 1007601785))
 (.node 1 (.leaf 1007602973)
 (.leaf 1007605561))))
 (.node 4 (.node 2 (.node 1 (.leaf 1007643351)
 (.leaf 1007650671))
 (.node 1 (.leaf 1007655192)
 (.leaf 1007655230)))
 (.node 2 (.node 1 (.leaf 1007659167)
 (.leaf 1007675477))
 (.node 1 (.leaf 1007678874)
 (.leaf 1007679312))))))))))))
 (.node 1024 (.node 512 (.node 256 (.node 128 (.node 64 (.node 32 (.node 16 (.node 8 (.node 4 (.node 2 (.node 1 (.leaf 1007679675)
 (.leaf 1007688465))
 (.node 1 (.leaf 1007696830)
 (.leaf 1007697250)))
 (.node 2 (.node 1 (.leaf 1007700139)
 (.leaf 1007703399))
 (.node 1 (.leaf 1007715000)
 (.leaf 1007717990))))
 (.node 4 (.node 2 (.node 1 (.leaf 1007721830)
 (.leaf 1007722079))
 (.node 1 (.leaf 1007745945)
 (.leaf 1007760781)))
 (.node 2 (.node 1 (.leaf 1007763841)
 (.leaf 1007765904))
 (.node 1 (.leaf 1007791513)
 (.leaf 1007801503)))))
 (.node 8 (.node 4 (.node 2 (.node 1 (.leaf 1007811106)
 (.leaf 1007827032))
 (.node 1 (.leaf 1007830512)
 (.leaf 1007840109)))
 (.node 2 (.node 1 (.leaf 1007843590)
 (.leaf 1007850657))
 (.node 1 (.leaf 1007851572)
 (.leaf 1007855826))))
 (.node 4 (.node 2 (.node 1 (.leaf 1007857504)
 (.leaf 1007860929))
 (.node 1 (.leaf 1007888441)
 (.leaf 1007911514)))
 (.node 2 (.node 1 (.leaf 1007922645)
 (.leaf 1007933029))
 (.node 1 (.leaf 1007939839)
 (.leaf 1007944512))))))
 (.node 16 (.node 8 (.node 4 (.node 2 (.node 1 (.leaf 1007949659)
 (.leaf 1007952023))
 (.node 1 (.leaf 1007953867)
 (.leaf 1007960353)))
 (.node 2 (.node 1 (.leaf 1007960611)
 (.leaf 1007968454))
 (.node 1 (.leaf 1007968602)
 (.leaf 1007988134))))
 (.node 4 (.node 2 (.node 1 (.leaf 1007988794)
 (.leaf 1008003900))
 (.node 1 (.leaf 1008004852)
 (.leaf 1008006982)))
 (.node 2 (.node 1 (.leaf 1008031468)
 (.leaf 1008055204))
 (.node 1 (.leaf 1008071336)
 (.leaf 1008072413)))))
 (.node 8 (.node 4 (.node 2 (.node 1 (.leaf 1008072597)
 (.leaf 1008082844))
 (.node 1 (.leaf 1008087113)
 (.leaf 1008089243)))
 (.node 2 (.node 1 (.leaf 1008090695)
 (.leaf 1008097134))
 (.node 1 (.leaf 1008103367)
 (.leaf 1008116725))))
 (.node 4 (.node 2 (.node 1 (.leaf 1008125629)
 (.leaf 1008148610))
 (.node 1 (.leaf 1008160671)
 (.leaf 1008161740)))
 (.node 2 (.node 1 (.leaf 1008173399)
 (.leaf 1008175889))
 (.node 1 (.leaf 1008187887)
 (.leaf 1008196233)))))))
 (.node 32 (.node 16 (.node 8 (.node 4 (.node 2 (.node 1 (.leaf 1008199494)
 (.leaf 1008211652))
 (.node 1 (.leaf 1008213999)
 (.leaf 1008217032)))
 (.node 2 (.node 1 (.leaf 1008222411)
 (.leaf 1008238336))
 (.node 1 (.leaf 1008240523)
 (.leaf 1008258052))))
 (.node 4 (.node 2 (.node 1 (.leaf 1008264867)
 (.leaf 1008295273))
 (.node 1 (.leaf 1008304862)
 (.leaf 1008306915)))
 (.node 2 (.node 1 (.leaf 1008318861)
 (.leaf 1008331826))
 (.node 1 (.leaf 1008332519)
 (.leaf 1008356252)))))
 (.node 8 (.node 4 (.node 2 (.node 1 (.leaf 1008367320)
 (.leaf 1008379045))
 (.node 1 (.leaf 1008383853)
 (.leaf 1008389083)))
 (.node 2 (.node 1 (.leaf 1008394394)
 (.leaf 1008406559))
 (.node 1 (.leaf 1008410459)
 (.leaf 1008416703))))
 (.node 4 (.node 2 (.node 1 (.leaf 1008419738)
 (.leaf 1008424224))
 (.node 1 (.leaf 1008429647)
 (.leaf 1008439118)))
 (.node 2 (.node 1 (.leaf 1008450128)
 (.leaf 1008457116))
 (.node 1 (.leaf 1008465085)
 (.leaf 1008471869))))))
 (.node 16 (.node 8 (.node 4 (.node 2 (.node 1 (.leaf 1008478690)
 (.leaf 1008480099))
 (.node 1 (.leaf 1008492474)
 (.leaf 1008492877)))
 (.node 2 (.node 1 (.leaf 1008511620)
 (.leaf 1008515059))
 (.node 1 (.leaf 1008529250)
 (.leaf 1008531882))))
 (.node 4 (.node 2 (.node 1 (.leaf 1008546579)
 (.leaf 1008551343))
 (.node 1 (.leaf 1008551504)
 (.leaf 1008556240)))
 (.node 2 (.node 1 (.leaf 1008581487)
 (.leaf 1008605753))
 (.node 1 (.leaf 1008611737)
 (.leaf 1008632560)))))
 (.node 8 (.node 4 (.node 2 (.node 1 (.leaf 1008637714)
 (.leaf 1008645013))
 (.node 1 (.leaf 1008645696)
 (.leaf 1008650534)))
 (.node 2 (.node 1 (.leaf 1008658600)
 (.leaf 1008672466))
 (.node 1 (.leaf 1008686862)
 (.leaf 1008699798))))
 (.node 4 (.node 2 (.node 1 (.leaf 1008708016)
 (.leaf 1008710138))
 (.node 1 (.leaf 1008716532)
 (.leaf 1008720525)))
 (.node 2 (.node 1 (.leaf 1008746741)
 (.leaf 1008747025))
 (.node 1 (.leaf 1008747572)
 (.leaf 1008750360))))))))
 (.node 64 (.node 32 (.node 16 (.node 8 (.node 4 (.node 2 (.node 1 (.leaf 1008752137)
 (.leaf 1008762993))
 (.node 1 (.leaf 1008765892)
 (.leaf 1008772685)))
 (.node 2 (.node 1 (.leaf 1008772801)
 (.leaf 1008776793))
 (.node 1 (.leaf 1008782739)
 (.leaf 1008793737))))
 (.node 4 (.node 2 (.node 1 (.leaf 1008817196)
 (.leaf 1008821690))
 (.node 1 (.leaf 1008831598)
 (.leaf 1008852308)))
 (.node 2 (.node 1 (.leaf 1008852463)
 (.leaf 1008855760))
 (.node 1 (.leaf 1008858190)
 (.leaf 1008861847)))))
 (.node 8 (.node 4 (.node 2 (.node 1 (.leaf 1008863779)
 (.leaf 1008877798))
 (.node 1 (.leaf 1008890474)
 (.leaf 1008893630)))
 (.node 2 (.node 1 (.leaf 1008894465)
 (.leaf 1008899927))
 (.node 1 (.leaf 1008914962)
 (.leaf 1008929762))))
 (.node 4 (.node 2 (.node 1 (.leaf 1008934991)
 (.leaf 1008936756))
 (.node 1 (.leaf 1008943005)
 (.leaf 1008947887)))
 (.node 2 (.node 1 (.leaf 1008950270)
 (.leaf 1008956098))
 (.node 1 (.leaf 1008960007)
 (.leaf 1008960417))))))
 (.node 16 (.node 8 (.node 4 (.node 2 (.node 1 (.leaf 1008960910)
 (.leaf 1008981834))
 (.node 1 (.leaf 1008999641)
 (.leaf 1009006967)))
 (.node 2 (.node 1 (.leaf 1009009850)
 (.leaf 1009019843))
 (.node 1 (.leaf 1009028782)
 (.leaf 1009054691))))
 (.node 4 (.node 2 (.node 1 (.leaf 1009061690)
 (.leaf 1009070776))
 (.node 1 (.leaf 1009073732)
 (.leaf 1009076040)))
 (.node 2 (.node 1 (.leaf 1009077500)
 (.leaf 1009078374))
 (.node 1 (.leaf 1009103411)
 (.leaf 1009104723)))))
 (.node 8 (.node 4 (.node 2 (.node 1 (.leaf 1009105082)
 (.leaf 1009108532))
 (.node 1 (.leaf 1009134019)
 (.leaf 1009154383)))
 (.node 2 (.node 1 (.leaf 1009157583)
 (.leaf 1009162822))
 (.node 1 (.leaf 1009165763)
 (.leaf 1009169043))))
 (.node 4 (.node 2 (.node 1 (.leaf 1009170622)
 (.leaf 1009172449))
 (.node 1 (.leaf 1009192540)
 (.leaf 1009202460)))
 (.node 2 (.node 1 (.leaf 1009214832)
 (.leaf 1009223844))
 (.node 1 (.leaf 1009228655)
 (.leaf 1009234725)))))))
 (.node 32 (.node 16 (.node 8 (.node 4 (.node 2 (.node 1 (.leaf 1009251295)
 (.leaf 1009266918))
 (.node 1 (.leaf 1009272733)
 (.leaf 1009281561)))
 (.node 2 (.node 1 (.leaf 1009301127)
 (.leaf 1009315333))
 (.node 1 (.leaf 1009316800)
 (.leaf 1009317125))))
 (.node 4 (.node 2 (.node 1 (.leaf 1009340739)
 (.leaf 1009348508))
 (.node 1 (.leaf 1009352829)
 (.leaf 1009357714)))
 (.node 2 (.node 1 (.leaf 1009367442)
 (.leaf 1009370164))
 (.node 1 (.leaf 1009370952)
 (.leaf 1009371203)))))
 (.node 8 (.node 4 (.node 2 (.node 1 (.leaf 1009374389)
 (.leaf 1009382706))
 (.node 1 (.leaf 1009401413)
 (.leaf 1009406986)))
 (.node 2 (.node 1 (.leaf 1009419383)
 (.leaf 1009422697))
 (.node 1 (.leaf 1009443886)
 (.leaf 1009447778))))
 (.node 4 (.node 2 (.node 1 (.leaf 1009455228)
 (.leaf 1009464401))
 (.node 1 (.leaf 1009468927)
 (.leaf 1009488342)))
 (.node 2 (.node 1 (.leaf 1009490746)
 (.leaf 1009495789))
 (.node 1 (.leaf 1009496538)
 (.leaf 1009511735))))))
 (.node 16 (.node 8 (.node 4 (.node 2 (.node 1 (.leaf 1009515198)
 (.leaf 1009531935))
 (.node 1 (.leaf 1009546964)
 (.leaf 1009565977)))
 (.node 2 (.node 1 (.leaf 1009569968)
 (.leaf 1009576802))
 (.node 1 (.leaf 1009577288)
 (.leaf 1009591296))))
 (.node 4 (.node 2 (.node 1 (.leaf 1009592760)
 (.leaf 1009612098))
 (.node 1 (.leaf 1009612947)
 (.leaf 1009622367)))
 (.node 2 (.node 1 (.leaf 1009627917)
 (.leaf 1009630492))
 (.node 1 (.leaf 1009650866)
 (.leaf 1009659776)))))
 (.node 8 (.node 4 (.node 2 (.node 1 (.leaf 1009661908)
 (.leaf 1009684366))
 (.node 1 (.leaf 1009685830)
 (.leaf 1009692657)))
 (.node 2 (.node 1 (.leaf 1009696304)
 (.leaf 1009731119))
 (.node 1 (.leaf 1009731753)
 (.leaf 1009736473))))
 (.node 4 (.node 2 (.node 1 (.leaf 1009743568)
 (.leaf 1009762195))
 (.node 1 (.leaf 1009767944)
 (.leaf 1009769404)))
 (.node 2 (.node 1 (.leaf 1009789082)
 (.leaf 1009806776))
 (.node 1 (.leaf 1009814638)
 (.leaf 1009836178)))))))))
 (.node 128 (.node 64 (.node 32 (.node 16 (.node 8 (.node 4 (.node 2 (.node 1 (.leaf 1009858303)
 (.leaf 1009866530))
 (.node 1 (.leaf 1009871090)
 (.leaf 1009873037)))
 (.node 2 (.node 1 (.leaf 1009879145)
 (.leaf 1009900570))
 (.node 1 (.leaf 1009900928)
 (.leaf 1009913104))))
 (.node 4 (.node 2 (.node 1 (.leaf 1009915393)
 (.leaf 1009916082))
 (.node 1 (.leaf 1009917729)
 (.leaf 1009934204)))
 (.node 2 (.node 1 (.leaf 1009942628)
 (.leaf 1009956952))
 (.node 1 (.leaf 1009978680)
 (.leaf 1009980994)))))
 (.node 8 (.node 4 (.node 2 (.node 1 (.leaf 1009981614)
 (.leaf 1009991900))
 (.node 1 (.leaf 1010037505)
 (.leaf 1010063611)))
 (.node 2 (.node 1 (.leaf 1010066083)
 (.leaf 1010082661))
 (.node 1 (.leaf 1010091913)
 (.leaf 1010098739))))
 (.node 4 (.node 2 (.node 1 (.leaf 1010107383)
 (.leaf 1010112095))
 (.node 1 (.leaf 1010126529)
 (.leaf 1010144556)))
 (.node 2 (.node 1 (.leaf 1010150590)
 (.leaf 1010153419))
 (.node 1 (.leaf 1010162196)
 (.leaf 1010173906))))))
 (.node 16 (.node 8 (.node 4 (.node 2 (.node 1 (.leaf 1010178477)
 (.leaf 1010187857))
 (.node 1 (.leaf 1010202825)
 (.leaf 1010205897)))
 (.node 2 (.node 1 (.leaf 1010221682)
 (.leaf 1010222572))
 (.node 1 (.leaf 1010227052)
 (.leaf 1010227862))))
 (.node 4 (.node 2 (.node 1 (.leaf 1010228003)
 (.leaf 1010239856))
 (.node 1 (.leaf 1010246470)
 (.leaf 1010260229)))
 (.node 2 (.node 1 (.leaf 1010268970)
 (.leaf 1010276491))
 (.node 1 (.leaf 1010278772)
 (.leaf 1010286406)))))
 (.node 8 (.node 4 (.node 2 (.node 1 (.leaf 1010294673)
 (.leaf 1010301710))
 (.node 1 (.leaf 1010320259)
 (.leaf 1010323055)))
 (.node 2 (.node 1 (.leaf 1010323866)
 (.leaf 1010331417))
 (.node 1 (.leaf 1010344052)
 (.leaf 1010363167))))
 (.node 4 (.node 2 (.node 1 (.leaf 1010375985)
 (.leaf 1010378457))
 (.node 1 (.leaf 1010378632)
 (.leaf 1010381246)))
 (.node 2 (.node 1 (.leaf 1010384898)
 (.leaf 1010405983))
 (.node 1 (.leaf 1010407762)
 (.leaf 1010422431)))))))
 (.node 32 (.node 16 (.node 8 (.node 4 (.node 2 (.node 1 (.leaf 1010423103)
 (.leaf 1010430000))
 (.node 1 (.leaf 1010430610)
 (.leaf 1010443787)))
 (.node 2 (.node 1 (.leaf 1010444977)
 (.leaf 1010457134))
 (.node 1 (.leaf 1010462225)
 (.leaf 1010486094))))
 (.node 4 (.node 2 (.node 1 (.leaf 1010488952)
 (.leaf 1010500837))
 (.node 1 (.leaf 1010505363)
 (.leaf 1010521699)))
 (.node 2 (.node 1 (.leaf 1010527542)
 (.leaf 1010529658))
 (.node 1 (.leaf 1010537790)
 (.leaf 1010540531)))))
 (.node 8 (.node 4 (.node 2 (.node 1 (.leaf 1010543023)
 (.leaf 1010548516))
 (.node 1 (.leaf 1010550466)
 (.leaf 1010579150)))
 (.node 2 (.node 1 (.leaf 1010586229)
 (.leaf 1010608522))
 (.node 1 (.leaf 1010620564)
 (.leaf 1010641086))))
 (.node 4 (.node 2 (.node 1 (.leaf 1010654790)
 (.leaf 1010658773))
 (.node 1 (.leaf 1010660694)
 (.leaf 1010674577)))
 (.node 2 (.node 1 (.leaf 1010677226)
 (.leaf 1010688279))
 (.node 1 (.leaf 1010694740)
 (.leaf 1010701222))))))
 (.node 16 (.node 8 (.node 4 (.node 2 (.node 1 (.leaf 1010704621)
 (.leaf 1010710202))
 (.node 1 (.leaf 1010720237)
 (.leaf 1010722015)))
 (.node 2 (.node 1 (.leaf 1010725965)
 (.leaf 1010731810))
 (.node 1 (.leaf 1010749806)
 (.leaf 1010769995))))
 (.node 4 (.node 2 (.node 1 (.leaf 1010781057)
 (.leaf 1010785809))
 (.node 1 (.leaf 1010792189)
 (.leaf 1010796304)))
 (.node 2 (.node 1 (.leaf 1010811817)
 (.leaf 1010818000))
 (.node 1 (.leaf 1010825791)
 (.leaf 1010826132)))))
 (.node 8 (.node 4 (.node 2 (.node 1 (.leaf 1010826187)
 (.leaf 1010831319))
 (.node 1 (.leaf 1010848216)
 (.leaf 1010852068)))
 (.node 2 (.node 1 (.leaf 1010853694)
 (.leaf 1010856587))
 (.node 1 (.leaf 1010893841)
 (.leaf 1010928156))))
 (.node 4 (.node 2 (.node 1 (.leaf 1010960645)
 (.leaf 1010963019))
 (.node 1 (.leaf 1010966380)
 (.leaf 1010972721)))
 (.node 2 (.node 1 (.leaf 1010973900)
 (.leaf 1010993905))
 (.node 1 (.leaf 1011021259)
 (.leaf 1011023486))))))))
 (.node 64 (.node 32 (.node 16 (.node 8 (.node 4 (.node 2 (.node 1 (.leaf 1011036946)
 (.leaf 1011066454))
 (.node 1 (.leaf 1011081629)
 (.leaf 1011096572)))
 (.node 2 (.node 1 (.leaf 1011099448)
 (.leaf 1011112456))
 (.node 1 (.leaf 1011122136)
 (.leaf 1011125319))))
 (.node 4 (.node 2 (.node 1 (.leaf 1011143923)
 (.leaf 1011150294))
 (.node 1 (.leaf 1011155350)
 (.leaf 1011162588)))
 (.node 2 (.node 1 (.leaf 1011197298)
 (.leaf 1011198947))
 (.node 1 (.leaf 1011201925)
 (.leaf 1011216820)))))
 (.node 8 (.node 4 (.node 2 (.node 1 (.leaf 1011229122)
 (.leaf 1011236061))
 (.node 1 (.leaf 1011240326)
 (.leaf 1011242356)))
 (.node 2 (.node 1 (.leaf 1011246032)
 (.leaf 1011266492))
 (.node 1 (.leaf 1011274006)
 (.leaf 1011276417))))
 (.node 4 (.node 2 (.node 1 (.leaf 1011281215)
 (.leaf 1011310047))
 (.node 1 (.leaf 1011325489)
 (.leaf 1011329475)))
 (.node 2 (.node 1 (.leaf 1011350950)
 (.leaf 1011362341))
 (.node 1 (.leaf 1011372810)
 (.leaf 1011376862))))))
 (.node 16 (.node 8 (.node 4 (.node 2 (.node 1 (.leaf 1011389529)
 (.leaf 1011421027))
 (.node 1 (.leaf 1011425322)
 (.leaf 1011429825)))
 (.node 2 (.node 1 (.leaf 1011459789)
 (.leaf 1011466110))
 (.node 1 (.leaf 1011510682)
 (.leaf 1011512866))))
 (.node 4 (.node 2 (.node 1 (.leaf 1011513527)
 (.leaf 1011524386))
 (.node 1 (.leaf 1011529529)
 (.leaf 1011534955)))
 (.node 2 (.node 1 (.leaf 1011541140)
 (.leaf 1011563820))
 (.node 1 (.leaf 1011568161)
 (.leaf 1011589149)))))
 (.node 8 (.node 4 (.node 2 (.node 1 (.leaf 1011616837)
 (.leaf 1011623953))
 (.node 1 (.leaf 1011637247)
 (.leaf 1011637845)))
 (.node 2 (.node 1 (.leaf 1011638920)
 (.leaf 1011654864))
 (.node 1 (.leaf 1011658366)
 (.leaf 1011660104))))
 (.node 4 (.node 2 (.node 1 (.leaf 1011670779)
 (.leaf 1011681835))
 (.node 1 (.leaf 1011697370)
 (.leaf 1011697634)))
 (.node 2 (.node 1 (.leaf 1011713204)
 (.leaf 1011742879))
 (.node 1 (.leaf 1011758189)
 (.leaf 1011765646)))))))
 (.node 32 (.node 16 (.node 8 (.node 4 (.node 2 (.node 1 (.leaf 1011766099)
 (.leaf 1011783961))
 (.node 1 (.leaf 1011793962)
 (.leaf 1011806603)))
 (.node 2 (.node 1 (.leaf 1011807487)
 (.leaf 1011815356))
 (.node 1 (.leaf 1011829201)
 (.leaf 1011830840))))
 (.node 4 (.node 2 (.node 1 (.leaf 1011843691)
 (.leaf 1011854944))
 (.node 1 (.leaf 1011855163)
 (.leaf 1011858408)))
 (.node 2 (.node 1 (.leaf 1011882513)
 (.leaf 1011886665))
 (.node 1 (.leaf 1011895417)
 (.leaf 1011907511)))))
 (.node 8 (.node 4 (.node 2 (.node 1 (.leaf 1011909052)
 (.leaf 1011931001))
 (.node 1 (.leaf 1011932672)
 (.leaf 1011946496)))
 (.node 2 (.node 1 (.leaf 1011949851)
 (.leaf 1011961059))
 (.node 1 (.leaf 1011973901)
 (.leaf 1012022150))))
 (.node 4 (.node 2 (.node 1 (.leaf 1012024189)
 (.leaf 1012024457))
 (.node 1 (.leaf 1012027199)
 (.leaf 1012033488)))
 (.node 2 (.node 1 (.leaf 1012034695)
 (.leaf 1012048589))
 (.node 1 (.leaf 1012098028)
 (.leaf 1012111900))))))
 (.node 16 (.node 8 (.node 4 (.node 2 (.node 1 (.leaf 1012117838)
 (.leaf 1012119261))
 (.node 1 (.leaf 1012148504)
 (.leaf 1012161745)))
 (.node 2 (.node 1 (.leaf 1012164983)
 (.leaf 1012174703))
 (.node 1 (.leaf 1012190966)
 (.leaf 1012201817))))
 (.node 4 (.node 2 (.node 1 (.leaf 1012217283)
 (.leaf 1012217580))
 (.node 1 (.leaf 1012222608)
 (.leaf 1012235282)))
 (.node 2 (.node 1 (.leaf 1012277876)
 (.leaf 1012280501))
 (.node 1 (.leaf 1012286166)
 (.leaf 1012293996)))))
 (.node 8 (.node 4 (.node 2 (.node 1 (.leaf 1012332516)
 (.leaf 1012332910))
 (.node 1 (.leaf 1012333348)
 (.leaf 1012372315)))
 (.node 2 (.node 1 (.leaf 1012372617)
 (.leaf 1012397077))
 (.node 1 (.leaf 1012401012)
 (.leaf 1012432922))))
 (.node 4 (.node 2 (.node 1 (.leaf 1012440251)
 (.leaf 1012450323))
 (.node 1 (.leaf 1012452617)
 (.leaf 1012454809)))
 (.node 2 (.node 1 (.leaf 1012466848)
 (.leaf 1012477027))
 (.node 1 (.leaf 1012519444)
 (.leaf 1012532438))))))))))
 (.node 256 (.node 128 (.node 64 (.node 32 (.node 16 (.node 8 (.node 4 (.node 2 (.node 1 (.leaf 1012532588)
 (.leaf 1012546684))
 (.node 1 (.leaf 1012551845)
 (.leaf 1012554868)))
 (.node 2 (.node 1 (.leaf 1012565093)
 (.leaf 1012584737))
 (.node 1 (.leaf 1012592541)
 (.leaf 1012602811))))
 (.node 4 (.node 2 (.node 1 (.leaf 1012619292)
 (.leaf 1012619330))
 (.node 1 (.leaf 1012623592)
 (.leaf 1012641655)))
 (.node 2 (.node 1 (.leaf 1012645080)
 (.leaf 1012661845))
 (.node 1 (.leaf 1012690113)
 (.leaf 1012695225)))))
 (.node 8 (.node 4 (.node 2 (.node 1 (.leaf 1012697383)
 (.leaf 1012710486))
 (.node 1 (.leaf 1012743225)
 (.leaf 1012761791)))
 (.node 2 (.node 1 (.leaf 1012767839)
 (.leaf 1012776200))
 (.node 1 (.leaf 1012787843)
 (.leaf 1012791059))))
 (.node 4 (.node 2 (.node 1 (.leaf 1012794521)
 (.leaf 1012806233))
 (.node 1 (.leaf 1012808624)
 (.leaf 1012818741)))
 (.node 2 (.node 1 (.leaf 1012822434)
 (.leaf 1012830505))
 (.node 1 (.leaf 1012860025)
 (.leaf 1012861014))))))
 (.node 16 (.node 8 (.node 4 (.node 2 (.node 1 (.leaf 1012867197)
 (.leaf 1012895767))
 (.node 1 (.leaf 1012906607)
 (.leaf 1012937748)))
 (.node 2 (.node 1 (.leaf 1012937795)
 (.leaf 1012948860))
 (.node 1 (.leaf 1012955251)
 (.leaf 1012986719))))
 (.node 4 (.node 2 (.node 1 (.leaf 1012993121)
 (.leaf 1013000605))
 (.node 1 (.leaf 1013008050)
 (.leaf 1013013867)))
 (.node 2 (.node 1 (.leaf 1013023525)
 (.leaf 1013042123))
 (.node 1 (.leaf 1013042239)
 (.leaf 1013042727)))))
 (.node 8 (.node 4 (.node 2 (.node 1 (.leaf 1013051498)
 (.leaf 1013074159))
 (.node 1 (.leaf 1013095491)
 (.leaf 1013104118)))
 (.node 2 (.node 1 (.leaf 1013108568)
 (.leaf 1013134885))
 (.node 1 (.leaf 1013137922)
 (.leaf 1013137971))))
 (.node 4 (.node 2 (.node 1 (.leaf 1013141657)
 (.leaf 1013166809))
 (.node 1 (.leaf 1013172099)
 (.leaf 1013172174)))
 (.node 2 (.node 1 (.leaf 1013177064)
 (.leaf 1013182581))
 (.node 1 (.leaf 1013203372)
 (.leaf 1013213187)))))))
 (.node 32 (.node 16 (.node 8 (.node 4 (.node 2 (.node 1 (.leaf 1013222467)
 (.leaf 1013222727))
 (.node 1 (.leaf 1013245644)
 (.leaf 1013245706)))
 (.node 2 (.node 1 (.leaf 1013252501)
 (.leaf 1013272510))
 (.node 1 (.leaf 1013290322)
 (.leaf 1013326301))))
 (.node 4 (.node 2 (.node 1 (.leaf 1013335117)
 (.leaf 1013346739))
 (.node 1 (.leaf 1013347709)
 (.leaf 1013349373)))
 (.node 2 (.node 1 (.leaf 1013354933)
 (.leaf 1013356115))
 (.node 1 (.leaf 1013373611)
 (.leaf 1013408894)))))
 (.node 8 (.node 4 (.node 2 (.node 1 (.leaf 1013412202)
 (.leaf 1013441160))
 (.node 1 (.leaf 1013452111)
 (.leaf 1013464917)))
 (.node 2 (.node 1 (.leaf 1013469415)
 (.leaf 1013474021))
 (.node 1 (.leaf 1013476613)
 (.leaf 1013481011))))
 (.node 4 (.node 2 (.node 1 (.leaf 1013502879)
 (.leaf 1013516106))
 (.node 1 (.leaf 1013516694)
 (.leaf 1013553016)))
 (.node 2 (.node 1 (.leaf 1013556515)
 (.leaf 1013576640))
 (.node 1 (.leaf 1013601476)
 (.leaf 1013618900))))))
 (.node 16 (.node 8 (.node 4 (.node 2 (.node 1 (.leaf 1013625889)
 (.leaf 1013634154))
 (.node 1 (.leaf 1013638234)
 (.leaf 1013650413)))
 (.node 2 (.node 1 (.leaf 1013675647)
 (.leaf 1013698339))
 (.node 1 (.leaf 1013700229)
 (.leaf 1013716874))))
 (.node 4 (.node 2 (.node 1 (.leaf 1013725056)
 (.leaf 1013752606))
 (.node 1 (.leaf 1013776150)
 (.leaf 1013786453)))
 (.node 2 (.node 1 (.leaf 1013793227)
 (.leaf 1013799261))
 (.node 1 (.leaf 1013817281)
 (.leaf 1013820489)))))
 (.node 8 (.node 4 (.node 2 (.node 1 (.leaf 1013821862)
 (.leaf 1013827139))
 (.node 1 (.leaf 1013846368)
 (.leaf 1013851631)))
 (.node 2 (.node 1 (.leaf 1013861152)
 (.leaf 1013861490))
 (.node 1 (.leaf 1013894035)
 (.leaf 1013917797))))
 (.node 4 (.node 2 (.node 1 (.leaf 1013930781)
 (.leaf 1013942667))
 (.node 1 (.leaf 1013943031)
 (.leaf 1013952621)))
 (.node 2 (.node 1 (.leaf 1014003996)
 (.leaf 1014015476))
 (.node 1 (.leaf 1014037302)
 (.leaf 1014040148))))))))
 (.node 64 (.node 32 (.node 16 (.node 8 (.node 4 (.node 2 (.node 1 (.leaf 1014050514)
 (.leaf 1014051932))
 (.node 1 (.leaf 1014068009)
 (.leaf 1014078359)))
 (.node 2 (.node 1 (.leaf 1014081386)
 (.leaf 1014086514))
 (.node 1 (.leaf 1014103618)
 (.leaf 1014107905))))
 (.node 4 (.node 2 (.node 1 (.leaf 1014124178)
 (.leaf 1014186987))
 (.node 1 (.leaf 1014188967)
 (.leaf 1014193125)))
 (.node 2 (.node 1 (.leaf 1014210126)
 (.leaf 1014212804))
 (.node 1 (.leaf 1014215250)
 (.leaf 1014216185)))))
 (.node 8 (.node 4 (.node 2 (.node 1 (.leaf 1014247176)
 (.leaf 1014265522))
 (.node 1 (.leaf 1014266271)
 (.leaf 1014271980)))
 (.node 2 (.node 1 (.leaf 1014272384)
 (.leaf 1014272467))
 (.node 1 (.leaf 1014277176)
 (.leaf 1014277939))))
 (.node 4 (.node 2 (.node 1 (.leaf 1014299344)
 (.leaf 1014300424))
 (.node 1 (.leaf 1014349176)
 (.leaf 1014360107)))
 (.node 2 (.node 1 (.leaf 1014366435)
 (.leaf 1014377286))
 (.node 1 (.leaf 1014392146)
 (.leaf 1014406974))))))
 (.node 16 (.node 8 (.node 4 (.node 2 (.node 1 (.leaf 1014420997)
 (.leaf 1014421457))
 (.node 1 (.leaf 1014423221)
 (.leaf 1014434041)))
 (.node 2 (.node 1 (.leaf 1014449957)
 (.leaf 1014452952))
 (.node 1 (.leaf 1014480461)
 (.leaf 1014483989))))
 (.node 4 (.node 2 (.node 1 (.leaf 1014500277)
 (.leaf 1014506305))
 (.node 1 (.leaf 1014510266)
 (.leaf 1014515401)))
 (.node 2 (.node 1 (.leaf 1014524343)
 (.leaf 1014573594))
 (.node 1 (.leaf 1014598524)
 (.leaf 1014621939)))))
 (.node 8 (.node 4 (.node 2 (.node 1 (.leaf 1014622057)
 (.leaf 1014631388))
 (.node 1 (.leaf 1014633140)
 (.leaf 1014636497)))
 (.node 2 (.node 1 (.leaf 1014654924)
 (.leaf 1014659990))
 (.node 1 (.leaf 1014666819)
 (.leaf 1014681514))))
 (.node 4 (.node 2 (.node 1 (.leaf 1014683444)
 (.leaf 1014697449))
 (.node 1 (.leaf 1014700188)
 (.leaf 1014727915)))
 (.node 2 (.node 1 (.leaf 1014729912)
 (.leaf 1014733297))
 (.node 1 (.leaf 1014742551)
 (.leaf 1014778201)))))))
 (.node 32 (.node 16 (.node 8 (.node 4 (.node 2 (.node 1 (.leaf 1014818706)
 (.leaf 1014818842))
 (.node 1 (.leaf 1014831440)
 (.leaf 1014837201)))
 (.node 2 (.node 1 (.leaf 1014853512)
 (.leaf 1014853617))
 (.node 1 (.leaf 1014854331)
 (.leaf 1014865485))))
 (.node 4 (.node 2 (.node 1 (.leaf 1014886502)
 (.leaf 1014916914))
 (.node 1 (.leaf 1014928628)
 (.leaf 1014928987)))
 (.node 2 (.node 1 (.leaf 1014949109)
 (.leaf 1014959958))
 (.node 1 (.leaf 1014980288)
 (.leaf 1014980667)))))
 (.node 8 (.node 4 (.node 2 (.node 1 (.leaf 1015009867)
 (.leaf 1015011869))
 (.node 1 (.leaf 1015020132)
 (.leaf 1015023439)))
 (.node 2 (.node 1 (.leaf 1015031048)
 (.leaf 1015031387))
 (.node 1 (.leaf 1015035536)
 (.leaf 1015039188))))
 (.node 4 (.node 2 (.node 1 (.leaf 1015065953)
 (.leaf 1015071779))
 (.node 1 (.leaf 1015074766)
 (.leaf 1015078537)))
 (.node 2 (.node 1 (.leaf 1015083497)
 (.leaf 1015088577))
 (.node 1 (.leaf 1015099095)
 (.leaf 1015104062))))))
 (.node 16 (.node 8 (.node 4 (.node 2 (.node 1 (.leaf 1015109919)
 (.leaf 1015111756))
 (.node 1 (.leaf 1015119325)
 (.leaf 1015132297)))
 (.node 2 (.node 1 (.leaf 1015138290)
 (.leaf 1015139717))
 (.node 1 (.leaf 1015162684)
 (.leaf 1015169092))))
 (.node 4 (.node 2 (.node 1 (.leaf 1015173397)
 (.leaf 1015194462))
 (.node 1 (.leaf 1015201107)
 (.leaf 1015202636)))
 (.node 2 (.node 1 (.leaf 1015205484)
 (.leaf 1015205902))
 (.node 1 (.leaf 1015239309)
 (.leaf 1015248035)))))
 (.node 8 (.node 4 (.node 2 (.node 1 (.leaf 1015249344)
 (.leaf 1015271342))
 (.node 1 (.leaf 1015291508)
 (.leaf 1015294099)))
 (.node 2 (.node 1 (.leaf 1015300178)
 (.leaf 1015304778))
 (.node 1 (.leaf 1015307870)
 (.leaf 1015310674))))
 (.node 4 (.node 2 (.node 1 (.leaf 1015311094)
 (.leaf 1015331067))
 (.node 1 (.leaf 1015331427)
 (.leaf 1015333354)))
 (.node 2 (.node 1 (.leaf 1015368765)
 (.leaf 1015373910))
 (.node 1 (.leaf 1015375392)
 (.leaf 1015375889)))))))))
 (.node 128 (.node 64 (.node 32 (.node 16 (.node 8 (.node 4 (.node 2 (.node 1 (.leaf 1015384524)
 (.leaf 1015385265))
 (.node 1 (.leaf 1015389853)
 (.leaf 1015390818)))
 (.node 2 (.node 1 (.leaf 1015392485)
 (.leaf 1015406667))
 (.node 1 (.leaf 1015408653)
 (.leaf 1015413987))))
 (.node 4 (.node 2 (.node 1 (.leaf 1015439111)
 (.leaf 1015468972))
 (.node 1 (.leaf 1015473053)
 (.leaf 1015473375)))
 (.node 2 (.node 1 (.leaf 1015474102)
 (.leaf 1015479077))
 (.node 1 (.leaf 1015488625)
 (.leaf 1015511297)))))
 (.node 8 (.node 4 (.node 2 (.node 1 (.leaf 1015511623)
 (.leaf 1015511692))
 (.node 1 (.leaf 1015517286)
 (.leaf 1015534452)))
 (.node 2 (.node 1 (.leaf 1015563014)
 (.leaf 1015564760))
 (.node 1 (.leaf 1015565055)
 (.leaf 1015566819))))
 (.node 4 (.node 2 (.node 1 (.leaf 1015571343)
 (.leaf 1015585381))
 (.node 1 (.leaf 1015593839)
 (.leaf 1015595701)))
 (.node 2 (.node 1 (.leaf 1015601806)
 (.leaf 1015623601))
 (.node 1 (.leaf 1015633513)
 (.leaf 1015645290))))))
 (.node 16 (.node 8 (.node 4 (.node 2 (.node 1 (.leaf 1015647409)
 (.leaf 1015649723))
 (.node 1 (.leaf 1015651423)
 (.leaf 1015654807)))
 (.node 2 (.node 1 (.leaf 1015658775)
 (.leaf 1015675050))
 (.node 1 (.leaf 1015675978)
 (.leaf 1015689890))))
 (.node 4 (.node 2 (.node 1 (.leaf 1015698259)
 (.leaf 1015699124))
 (.node 1 (.leaf 1015708725)
 (.leaf 1015723020)))
 (.node 2 (.node 1 (.leaf 1015723899)
 (.leaf 1015733670))
 (.node 1 (.leaf 1015734136)
 (.leaf 1015751252)))))
 (.node 8 (.node 4 (.node 2 (.node 1 (.leaf 1015754183)
 (.leaf 1015777431))
 (.node 1 (.leaf 1015788666)
 (.leaf 1015791604)))
 (.node 2 (.node 1 (.leaf 1015826543)
 (.leaf 1015840970))
 (.node 1 (.leaf 1015847807)
 (.leaf 1015853039))))
 (.node 4 (.node 2 (.node 1 (.leaf 1015860271)
 (.leaf 1015878980))
 (.node 1 (.leaf 1015879811)
 (.leaf 1015905435)))
 (.node 2 (.node 1 (.leaf 1015914922)
 (.leaf 1015915119))
 (.node 1 (.leaf 1015919552)
 (.leaf 1015932284)))))))
 (.node 32 (.node 16 (.node 8 (.node 4 (.node 2 (.node 1 (.leaf 1015950219)
 (.leaf 1015951944))
 (.node 1 (.leaf 1015965905)
 (.leaf 1015982347)))
 (.node 2 (.node 1 (.leaf 1015985606)
 (.leaf 1015985860))
 (.node 1 (.leaf 1015991207)
 (.leaf 1016009158))))
 (.node 4 (.node 2 (.node 1 (.leaf 1016022980)
 (.leaf 1016029386))
 (.node 1 (.leaf 1016039279)
 (.leaf 1016045838)))
 (.node 2 (.node 1 (.leaf 1016067920)
 (.leaf 1016072564))
 (.node 1 (.leaf 1016085438)
 (.leaf 1016085858)))))
 (.node 8 (.node 4 (.node 2 (.node 1 (.leaf 1016088747)
 (.leaf 1016090954))
 (.node 1 (.leaf 1016106081)
 (.leaf 1016110687)))
 (.node 2 (.node 1 (.leaf 1016134553)
 (.leaf 1016141989))
 (.node 1 (.leaf 1016145813)
 (.leaf 1016149389))))
 (.node 4 (.node 2 (.node 1 (.leaf 1016149447)
 (.leaf 1016152449))
 (.node 1 (.leaf 1016154072)
 (.leaf 1016180121)))
 (.node 2 (.node 1 (.leaf 1016199729)
 (.leaf 1016205794))
 (.node 1 (.leaf 1016215640)
 (.leaf 1016219120))))))
 (.node 16 (.node 8 (.node 4 (.node 2 (.node 1 (.leaf 1016228717)
 (.leaf 1016231729))
 (.node 1 (.leaf 1016232198)
 (.leaf 1016237202)))
 (.node 2 (.node 1 (.leaf 1016240180)
 (.leaf 1016244434))
 (.node 1 (.leaf 1016249537)
 (.leaf 1016253717))))
 (.node 4 (.node 2 (.node 1 (.leaf 1016254203)
 (.leaf 1016261748))
 (.node 1 (.leaf 1016277049)
 (.leaf 1016292815)))
 (.node 2 (.node 1 (.leaf 1016300122)
 (.leaf 1016308400))
 (.node 1 (.leaf 1016321908)
 (.leaf 1016328447)))))
 (.node 8 (.node 4 (.node 2 (.node 1 (.leaf 1016343735)
 (.leaf 1016348439))
 (.node 1 (.leaf 1016349219)
 (.leaf 1016357062)))
 (.node 2 (.node 1 (.leaf 1016357210)
 (.leaf 1016383580))
 (.node 1 (.leaf 1016391127)
 (.leaf 1016394798))))
 (.node 4 (.node 2 (.node 1 (.leaf 1016395590)
 (.leaf 1016399565))
 (.node 1 (.leaf 1016402962)
 (.leaf 1016403940)))
 (.node 2 (.node 1 (.leaf 1016414012)
 (.leaf 1016415730))
 (.node 1 (.leaf 1016416985)
 (.leaf 1016420076))))))))
 (.node 64 (.node 32 (.node 16 (.node 8 (.node 4 (.node 2 (.node 1 (.leaf 1016423675)
 (.leaf 1016429830))
 (.node 1 (.leaf 1016442476)
 (.leaf 1016445320)))
 (.node 2 (.node 1 (.leaf 1016446386)
 (.leaf 1016446803))
 (.node 1 (.leaf 1016461205)
 (.leaf 1016471452))))
 (.node 4 (.node 2 (.node 1 (.leaf 1016479303)
 (.leaf 1016480982))
 (.node 1 (.leaf 1016492062)
 (.leaf 1016514237)))
 (.node 2 (.node 1 (.leaf 1016518687)
 (.leaf 1016522746))
 (.node 1 (.leaf 1016527124)
 (.leaf 1016535063)))))
 (.node 8 (.node 4 (.node 2 (.node 1 (.leaf 1016544941)
 (.leaf 1016564497))
 (.node 1 (.leaf 1016568607)
 (.leaf 1016569334)))
 (.node 2 (.node 1 (.leaf 1016575028)
 (.leaf 1016583592))
 (.node 1 (.leaf 1016584841)
 (.leaf 1016588102))))
 (.node 4 (.node 2 (.node 1 (.leaf 1016595832)
 (.leaf 1016603658))
 (.node 1 (.leaf 1016611019)
 (.leaf 1016634725)))
 (.node 2 (.node 1 (.leaf 1016641558)
 (.leaf 1016646191))
 (.node 1 (.leaf 1016653475)
 (.leaf 1016662520))))))
 (.node 16 (.node 8 (.node 4 (.node 2 (.node 1 (.leaf 1016696216)
 (.leaf 1016710519))
 (.node 1 (.leaf 1016721127)
 (.leaf 1016723973)))
 (.node 2 (.node 1 (.leaf 1016767653)
 (.leaf 1016768338))
 (.node 1 (.leaf 1016783002)
 (.leaf 1016790305))))
 (.node 4 (.node 2 (.node 1 (.leaf 1016791785)
 (.leaf 1016812832))
 (.node 1 (.leaf 1016818255)
 (.leaf 1016841068)))
 (.node 2 (.node 1 (.leaf 1016843630)
 (.leaf 1016854486))
 (.node 1 (.leaf 1016861282)
 (.leaf 1016868707)))))
 (.node 8 (.node 4 (.node 2 (.node 1 (.leaf 1016868952)
 (.leaf 1016871269))
 (.node 1 (.leaf 1016899200)
 (.leaf 1016903988)))
 (.node 2 (.node 1 (.leaf 1016907393)
 (.leaf 1016915130))
 (.node 1 (.leaf 1016918063)
 (.leaf 1016925884))))
 (.node 4 (.node 2 (.node 1 (.leaf 1016930589)
 (.leaf 1016935187))
 (.node 1 (.leaf 1016936435)
 (.leaf 1016939951)))
 (.node 2 (.node 1 (.leaf 1016947280)
 (.leaf 1016951027))
 (.node 1 (.leaf 1016963572)
 (.leaf 1016967838)))))))
 (.node 32 (.node 16 (.node 8 (.node 4 (.node 2 (.node 1 (.leaf 1016975717)
 (.leaf 1016979770))
 (.node 1 (.leaf 1016991400)
 (.leaf 1017013685)))
 (.node 2 (.node 1 (.leaf 1017023217)
 (.leaf 1017034325))
 (.node 1 (.leaf 1017053737)
 (.leaf 1017080723))))
 (.node 4 (.node 2 (.node 1 (.leaf 1017087876)
 (.leaf 1017088406))
 (.node 1 (.leaf 1017091224)
 (.leaf 1017092920)))
 (.node 2 (.node 1 (.leaf 1017093880)
 (.leaf 1017098746))
 (.node 1 (.leaf 1017101059)
 (.leaf 1017105476)))))
 (.node 8 (.node 4 (.node 2 (.node 1 (.leaf 1017117822)
 (.leaf 1017125497))
 (.node 1 (.leaf 1017137724)
 (.leaf 1017138968)))
 (.node 2 (.node 1 (.leaf 1017140745)
 (.leaf 1017154500))
 (.node 1 (.leaf 1017161409)
 (.leaf 1017165401))))
 (.node 4 (.node 2 (.node 1 (.leaf 1017170193)
 (.leaf 1017173908))
 (.node 1 (.leaf 1017183148)
 (.leaf 1017188724)))
 (.node 2 (.node 1 (.leaf 1017190983)
 (.leaf 1017202797))
 (.node 1 (.leaf 1017206255)
 (.leaf 1017210298))))))
 (.node 16 (.node 8 (.node 4 (.node 2 (.node 1 (.leaf 1017216218)
 (.leaf 1017238987))
 (.node 1 (.leaf 1017240916)
 (.leaf 1017241071)))
 (.node 2 (.node 1 (.leaf 1017246798)
 (.leaf 1017247482))
 (.node 1 (.leaf 1017248139)
 (.leaf 1017250455))))
 (.node 4 (.node 2 (.node 1 (.leaf 1017252387)
 (.leaf 1017258800))
 (.node 1 (.leaf 1017266406)
 (.leaf 1017294337)))
 (.node 2 (.node 1 (.leaf 1017299832)
 (.leaf 1017315698))
 (.node 1 (.leaf 1017316714)
 (.leaf 1017319144)))))
 (.node 8 (.node 4 (.node 2 (.node 1 (.leaf 1017328203)
 (.leaf 1017349025))
 (.node 1 (.leaf 1017350901)
 (.leaf 1017353883)))
 (.node 2 (.node 1 (.leaf 1017369510)
 (.leaf 1017370442))
 (.node 1 (.leaf 1017382603)
 (.leaf 1017398761))))
 (.node 4 (.node 2 (.node 1 (.leaf 1017405013)
 (.leaf 1017408451))
 (.node 1 (.leaf 1017414165)
 (.leaf 1017414194)))
 (.node 2 (.node 1 (.leaf 1017417390)
 (.leaf 1017450298))
 (.node 1 (.leaf 1017459384)
 (.leaf 1017462340)))))))))))
 (.node 512 (.node 256 (.node 128 (.node 64 (.node 32 (.node 16 (.node 8 (.node 4 (.node 2 (.node 1 (.leaf 1017464648)
 (.leaf 1017466108))
 (.node 1 (.leaf 1017475051)
 (.leaf 1017479075)))
 (.node 2 (.node 1 (.leaf 1017492019)
 (.leaf 1017503252))
 (.node 1 (.leaf 1017506115)
 (.leaf 1017521039))))
 (.node 4 (.node 2 (.node 1 (.leaf 1017522627)
 (.leaf 1017542991))
 (.node 1 (.leaf 1017543489)
 (.leaf 1017559230)))
 (.node 2 (.node 1 (.leaf 1017573342)
 (.leaf 1017581148))
 (.node 1 (.leaf 1017583396)
 (.leaf 1017588040)))))
 (.node 8 (.node 4 (.node 2 (.node 1 (.leaf 1017603518)
 (.leaf 1017616506))
 (.node 1 (.leaf 1017637214)
 (.leaf 1017642700)))
 (.node 2 (.node 1 (.leaf 1017648030)
 (.leaf 1017653007))
 (.node 1 (.leaf 1017683662)
 (.leaf 1017689735))))
 (.node 4 (.node 2 (.node 1 (.leaf 1017694253)
 (.leaf 1017705862))
 (.node 1 (.leaf 1017707854)
 (.leaf 1017708462)))
 (.node 2 (.node 1 (.leaf 1017746322)
 (.leaf 1017756050))
 (.node 1 (.leaf 1017759560)
 (.leaf 1017790021))))))
 (.node 16 (.node 8 (.node 4 (.node 2 (.node 1 (.leaf 1017790251)
 (.leaf 1017812754))
 (.node 1 (.leaf 1017814405)
 (.leaf 1017819152)))
 (.node 2 (.node 1 (.leaf 1017854721)
 (.leaf 1017857535))
 (.node 1 (.leaf 1017859314)
 (.leaf 1017904078))))
 (.node 4 (.node 2 (.node 1 (.leaf 1017906324)
 (.leaf 1017935572))
 (.node 1 (.leaf 1017965410)
 (.leaf 1017967047)))
 (.node 2 (.node 1 (.leaf 1017973400)
 (.leaf 1017997575))
 (.node 1 (.leaf 1018000706)
 (.leaf 1018004954)))))
 (.node 8 (.node 4 (.node 2 (.node 1 (.leaf 1018008847)
 (.leaf 1018010548))
 (.node 1 (.leaf 1018016525)
 (.leaf 1018036513)))
 (.node 2 (.node 1 (.leaf 1018038779)
 (.leaf 1018048384))
 (.node 1 (.leaf 1018063549)
 (.leaf 1018074438))))
 (.node 4 (.node 2 (.node 1 (.leaf 1018081265)
 (.leaf 1018090763))
 (.node 1 (.leaf 1018111200)
 (.leaf 1018117480)))
 (.node 2 (.node 1 (.leaf 1018120361)
 (.leaf 1018123907))
 (.node 1 (.leaf 1018132176)
 (.leaf 1018143592)))))))
 (.node 32 (.node 16 (.node 8 (.node 4 (.node 2 (.node 1 (.leaf 1018147079)
 (.leaf 1018149270))
 (.node 1 (.leaf 1018152289)
 (.leaf 1018156552)))
 (.node 2 (.node 1 (.leaf 1018158012)
 (.leaf 1018175312))
 (.node 1 (.leaf 1018191524)
 (.leaf 1018195384))))
 (.node 4 (.node 2 (.node 1 (.leaf 1018218138)
 (.leaf 1018222424))
 (.node 1 (.leaf 1018224867)
 (.leaf 1018248852)))
 (.node 2 (.node 1 (.leaf 1018259698)
 (.leaf 1018261645))
 (.node 1 (.leaf 1018271366)
 (.leaf 1018284523)))))
 (.node 8 (.node 4 (.node 2 (.node 1 (.leaf 1018289536)
 (.leaf 1018310232))
 (.node 1 (.leaf 1018331236)
 (.leaf 1018346083)))
 (.node 2 (.node 1 (.leaf 1018397782)
 (.leaf 1018409571))
 (.node 1 (.leaf 1018420180)
 (.leaf 1018438101))))
 (.node 4 (.node 2 (.node 1 (.leaf 1018451599)
 (.leaf 1018456768))
 (.node 1 (.leaf 1018461303)
 (.leaf 1018471269)))
 (.node 2 (.node 1 (.leaf 1018475008)
 (.leaf 1018484445))
 (.node 1 (.leaf 1018488868)
 (.leaf 1018500703))))))
 (.node 16 (.node 8 (.node 4 (.node 2 (.node 1 (.leaf 1018519929)
 (.leaf 1018550384))
 (.node 1 (.leaf 1018566911)
 (.leaf 1018569984)))
 (.node 2 (.node 1 (.leaf 1018589572)
 (.leaf 1018610290))
 (.node 1 (.leaf 1018611835)
 (.leaf 1018615452))))
 (.node 4 (.node 2 (.node 1 (.leaf 1018615660)
 (.leaf 1018624747))
 (.node 1 (.leaf 1018648837)
 (.leaf 1018649681)))
 (.node 2 (.node 1 (.leaf 1018667380)
 (.leaf 1018679452))
 (.node 1 (.leaf 1018690318)
 (.leaf 1018692133)))))
 (.node 8 (.node 4 (.node 2 (.node 1 (.leaf 1018732660)
 (.leaf 1018764593))
 (.node 1 (.leaf 1018765151)
 (.leaf 1018783268)))
 (.node 2 (.node 1 (.leaf 1018788088)
 (.leaf 1018796370))
 (.node 1 (.leaf 1018799093)
 (.leaf 1018812687))))
 (.node 4 (.node 2 (.node 1 (.leaf 1018813512)
 (.leaf 1018813949))
 (.node 1 (.leaf 1018818608)
 (.leaf 1018821991)))
 (.node 2 (.node 1 (.leaf 1018829425)
 (.leaf 1018832110))
 (.node 1 (.leaf 1018833585)
 (.leaf 1018849674))))))))
 (.node 64 (.node 32 (.node 16 (.node 8 (.node 4 (.node 2 (.node 1 (.leaf 1018871354)
 (.leaf 1018879891))
 (.node 1 (.leaf 1018891046)
 (.leaf 1018896525)))
 (.node 2 (.node 1 (.leaf 1018907305)
 (.leaf 1018908091))
 (.node 1 (.leaf 1018916150)
 (.leaf 1018929139))))
 (.node 4 (.node 2 (.node 1 (.leaf 1018940889)
 (.leaf 1018952469))
 (.node 1 (.leaf 1018955963)
 (.leaf 1018960720)))
 (.node 2 (.node 1 (.leaf 1018974244)
 (.leaf 1018995633))
 (.node 1 (.leaf 1019009090)
 (.leaf 1019009172)))))
 (.node 8 (.node 4 (.node 2 (.node 1 (.leaf 1019032146)
 (.leaf 1019062566))
 (.node 1 (.leaf 1019063827)
 (.leaf 1019076887)))
 (.node 2 (.node 1 (.leaf 1019103385)
 (.leaf 1019135036))
 (.node 1 (.leaf 1019169665)
 (.leaf 1019180427))))
 (.node 4 (.node 2 (.node 1 (.leaf 1019184912)
 (.leaf 1019193817))
 (.node 1 (.leaf 1019200425)
 (.leaf 1019208598)))
 (.node 2 (.node 1 (.leaf 1019214399)
 (.leaf 1019214740))
 (.node 1 (.leaf 1019214770)
 (.leaf 1019214795))))))
 (.node 16 (.node 8 (.node 4 (.node 2 (.node 1 (.leaf 1019223854)
 (.leaf 1019225399))
 (.node 1 (.leaf 1019242302)
 (.leaf 1019243169)))
 (.node 2 (.node 1 (.leaf 1019249930)
 (.leaf 1019255445))
 (.node 1 (.leaf 1019257371)
 (.leaf 1019295669))))
 (.node 4 (.node 2 (.node 1 (.leaf 1019348399)
 (.leaf 1019349253))
 (.node 1 (.leaf 1019359143)
 (.leaf 1019417356)))
 (.node 2 (.node 1 (.leaf 1019431318)
 (.leaf 1019437158))
 (.node 1 (.leaf 1019455062)
 (.leaf 1019459379)))))
 (.node 8 (.node 4 (.node 2 (.node 1 (.leaf 1019470237)
 (.leaf 1019471344))
 (.node 1 (.leaf 1019485180)
 (.leaf 1019488056)))
 (.node 2 (.node 1 (.leaf 1019551557)
 (.leaf 1019555868))
 (.node 1 (.leaf 1019565622)
 (.leaf 1019576521))))
 (.node 4 (.node 2 (.node 1 (.leaf 1019590533)
 (.leaf 1019625694))
 (.node 1 (.leaf 1019630964)
 (.leaf 1019645324)))
 (.node 2 (.node 1 (.leaf 1019655100)
 (.leaf 1019662614))
 (.node 1 (.leaf 1019665025)
 (.leaf 1019677440)))))))
 (.node 32 (.node 16 (.node 8 (.node 4 (.node 2 (.node 1 (.leaf 1019686628)
 (.leaf 1019699083))
 (.node 1 (.leaf 1019729290)
 (.leaf 1019761418)))
 (.node 2 (.node 1 (.leaf 1019767070)
 (.leaf 1019781261))
 (.node 1 (.leaf 1019793521)
 (.leaf 1019839664))))
 (.node 4 (.node 2 (.node 1 (.leaf 1019850467)
 (.leaf 1019854718))
 (.node 1 (.leaf 1019856143)
 (.leaf 1019872769)))
 (.node 2 (.node 1 (.leaf 1019892905)
 (.leaf 1019900469))
 (.node 1 (.leaf 1019929748)
 (.leaf 1019929866)))))
 (.node 8 (.node 4 (.node 2 (.node 1 (.leaf 1019936169)
 (.leaf 1019946909))
 (.node 1 (.leaf 1019950954)
 (.leaf 1019961189)))
 (.node 2 (.node 1 (.leaf 1019977757)
 (.leaf 1019998533))
 (.node 1 (.leaf 1020005445)
 (.leaf 1020010181))))
 (.node 4 (.node 2 (.node 1 (.leaf 1020012561)
 (.leaf 1020024566))
 (.node 1 (.leaf 1020031227)
 (.leaf 1020040535)))
 (.node 2 (.node 1 (.leaf 1020046974)
 (.leaf 1020063902))
 (.node 1 (.leaf 1020090821)
 (.leaf 1020114102))))))
 (.node 16 (.node 8 (.node 4 (.node 2 (.node 1 (.leaf 1020114687)
 (.leaf 1020122882))
 (.node 1 (.leaf 1020128398)
 (.leaf 1020158104)))
 (.node 2 (.node 1 (.leaf 1020169685)
 (.leaf 1020178576))
 (.node 1 (.leaf 1020195211)
 (.leaf 1020197487))))
 (.node 4 (.node 2 (.node 1 (.leaf 1020205575)
 (.leaf 1020270498))
 (.node 1 (.leaf 1020281048)
 (.leaf 1020293081)))
 (.node 2 (.node 1 (.leaf 1020295420)
 (.leaf 1020301140))
 (.node 1 (.leaf 1020308437)
 (.leaf 1020310398)))))
 (.node 8 (.node 4 (.node 2 (.node 1 (.leaf 1020321280)
 (.leaf 1020326432))
 (.node 1 (.leaf 1020327275)
 (.leaf 1020335104)))
 (.node 2 (.node 1 (.leaf 1020423335)
 (.leaf 1020424527))
 (.node 1 (.leaf 1020436651)
 (.leaf 1020437197))))
 (.node 4 (.node 2 (.node 1 (.leaf 1020455017)
 (.leaf 1020458987))
 (.node 1 (.leaf 1020464750)
 (.leaf 1020483707)))
 (.node 2 (.node 1 (.leaf 1020497790)
 (.leaf 1020503236))
 (.node 1 (.leaf 1020507869)
 (.leaf 1020536822)))))))))
 (.node 128 (.node 64 (.node 32 (.node 16 (.node 8 (.node 4 (.node 2 (.node 1 (.leaf 1020549727)
 (.leaf 1020550353))
 (.node 1 (.leaf 1020579574)
 (.leaf 1020581946)))
 (.node 2 (.node 1 (.leaf 1020599893)
 (.leaf 1020611216))
 (.node 1 (.leaf 1020623890)
 (.leaf 1020632457))))
 (.node 4 (.node 2 (.node 1 (.leaf 1020635431)
 (.leaf 1020665902))
 (.node 1 (.leaf 1020669109)
 (.leaf 1020670892)))
 (.node 2 (.node 1 (.leaf 1020675201)
 (.leaf 1020688502))
 (.node 1 (.leaf 1020707312)
 (.leaf 1020712632)))))
 (.node 8 (.node 4 (.node 2 (.node 1 (.leaf 1020731459)
 (.leaf 1020761225))
 (.node 1 (.leaf 1020789620)
 (.leaf 1020790308)))
 (.node 2 (.node 1 (.leaf 1020796930)
 (.leaf 1020798522))
 (.node 1 (.leaf 1020885350)
 (.leaf 1020913205))))
 (.node 4 (.node 2 (.node 1 (.leaf 1020921046)
 (.leaf 1020934808))
 (.node 1 (.leaf 1020935292)
 (.leaf 1020943476)))
 (.node 2 (.node 1 (.leaf 1020952375)
 (.leaf 1020953701))
 (.node 1 (.leaf 1020963348)
 (.leaf 1020998111))))))
 (.node 16 (.node 8 (.node 4 (.node 2 (.node 1 (.leaf 1021007900)
 (.leaf 1021030263))
 (.node 1 (.leaf 1021035233)
 (.leaf 1021044461)))
 (.node 2 (.node 1 (.leaf 1021068195)
 (.leaf 1021074888))
 (.node 1 (.leaf 1021083833)
 (.leaf 1021096516))))
 (.node 4 (.node 2 (.node 1 (.leaf 1021122742)
 (.leaf 1021124048))
 (.node 1 (.leaf 1021128966)
 (.leaf 1021131833)))
 (.node 2 (.node 1 (.leaf 1021144846)
 (.leaf 1021162706))
 (.node 1 (.leaf 1021164808)
 (.leaf 1021165975)))))
 (.node 8 (.node 4 (.node 2 (.node 1 (.leaf 1021176191)
 (.leaf 1021194841))
 (.node 1 (.leaf 1021206961)
 (.leaf 1021248633)))
 (.node 2 (.node 1 (.leaf 1021254574)
 (.leaf 1021273710))
 (.node 1 (.leaf 1021274037)
 (.leaf 1021284341))))
 (.node 4 (.node 2 (.node 1 (.leaf 1021290297)
 (.leaf 1021295215))
 (.node 1 (.leaf 1021300870)
 (.leaf 1021307116)))
 (.node 2 (.node 1 (.leaf 1021319032)
 (.leaf 1021325313))
 (.node 1 (.leaf 1021337468)
 (.leaf 1021341181)))))))
 (.node 32 (.node 16 (.node 8 (.node 4 (.node 2 (.node 1 (.leaf 1021350380)
 (.leaf 1021366985))
 (.node 1 (.leaf 1021367230)
 (.leaf 1021375051)))
 (.node 2 (.node 1 (.leaf 1021390697)
 (.leaf 1021392356))
 (.node 1 (.leaf 1021402100)
 (.leaf 1021402475))))
 (.node 4 (.node 2 (.node 1 (.leaf 1021447026)
 (.leaf 1021484099))
 (.node 1 (.leaf 1021507438)
 (.leaf 1021515757)))
 (.node 2 (.node 1 (.leaf 1021530265)
 (.leaf 1021546041))
 (.node 1 (.leaf 1021548012)
 (.leaf 1021560707)))))
 (.node 8 (.node 4 (.node 2 (.node 1 (.leaf 1021600049)
 (.leaf 1021608921))
 (.node 1 (.leaf 1021617362)
 (.leaf 1021619515)))
 (.node 2 (.node 1 (.leaf 1021634252)
 (.leaf 1021634877))
 (.node 1 (.leaf 1021664112)
 (.leaf 1021700359))))
 (.node 4 (.node 2 (.node 1 (.leaf 1021714909)
 (.leaf 1021726805))
 (.node 1 (.leaf 1021736317)
 (.leaf 1021737981)))
 (.node 2 (.node 1 (.leaf 1021749298)
 (.leaf 1021773154))
 (.node 1 (.leaf 1021778490)
 (.leaf 1021797502))))))
 (.node 16 (.node 8 (.node 4 (.node 2 (.node 1 (.leaf 1021804077)
 (.leaf 1021840719))
 (.node 1 (.leaf 1021865221)
 (.leaf 1021892541)))
 (.node 2 (.node 1 (.leaf 1021896039)
 (.leaf 1021910902))
 (.node 1 (.leaf 1021914245)
 (.leaf 1021929569))))
 (.node 4 (.node 2 (.node 1 (.leaf 1021941624)
 (.leaf 1021953172))
 (.node 1 (.leaf 1021959213)
 (.leaf 1021999758)))
 (.node 2 (.node 1 (.leaf 1022005747)
 (.leaf 1022017271))
 (.node 1 (.leaf 1022039021)
 (.leaf 1022077412)))))
 (.node 8 (.node 4 (.node 2 (.node 1 (.leaf 1022093447)
 (.leaf 1022103225))
 (.node 1 (.leaf 1022105392)
 (.leaf 1022125210)))
 (.node 2 (.node 1 (.leaf 1022138663)
 (.leaf 1022187869))
 (.node 1 (.leaf 1022202655)
 (.leaf 1022223004))))
 (.node 4 (.node 2 (.node 1 (.leaf 1022279696)
 (.leaf 1022337522))
 (.node 1 (.leaf 1022341229)
 (.leaf 1022350020)))
 (.node 2 (.node 1 (.leaf 1022390105)
 (.leaf 1022392604))
 (.node 1 (.leaf 1022404084)
 (.leaf 1022410758))))))))
 (.node 64 (.node 32 (.node 16 (.node 8 (.node 4 (.node 2 (.node 1 (.leaf 1022429171)
 (.leaf 1022456617))
 (.node 1 (.leaf 1022474747)
 (.leaf 1022487715)))
 (.node 2 (.node 1 (.leaf 1022496513)
 (.leaf 1022531294))
 (.node 1 (.leaf 1022543421)
 (.leaf 1022544895))))
 (.node 4 (.node 2 (.node 1 (.leaf 1022550072)
 (.leaf 1022553194))
 (.node 1 (.leaf 1022562101)
 (.leaf 1022575595)))
 (.node 2 (.node 1 (.leaf 1022601412)
 (.leaf 1022602143))
 (.node 1 (.leaf 1022635784)
 (.leaf 1022660588)))))
 (.node 8 (.node 4 (.node 2 (.node 1 (.leaf 1022665784)
 (.leaf 1022695550))
 (.node 1 (.leaf 1022718090)
 (.leaf 1022720285)))
 (.node 2 (.node 1 (.leaf 1022737774)
 (.leaf 1022737784))
 (.node 1 (.leaf 1022765894)
 (.leaf 1022771707))))
 (.node 4 (.node 2 (.node 1 (.leaf 1022809605)
 (.leaf 1022810093))
 (.node 1 (.leaf 1022814949)
 (.leaf 1022846135)))
 (.node 2 (.node 1 (.leaf 1022877030)
 (.leaf 1022883993))
 (.node 1 (.leaf 1022916296)
 (.leaf 1022935434))))))
 (.node 16 (.node 8 (.node 4 (.node 2 (.node 1 (.leaf 1022942988)
 (.leaf 1022949904))
 (.node 1 (.leaf 1022974333)
 (.leaf 1022984381)))
 (.node 2 (.node 1 (.leaf 1023006827)
 (.leaf 1023043532))
 (.node 1 (.leaf 1023166809)
 (.leaf 1023175498))))
 (.node 4 (.node 2 (.node 1 (.leaf 1023175532)
 (.leaf 1023206593))
 (.node 1 (.leaf 1023207541)
 (.leaf 1023215264)))
 (.node 2 (.node 1 (.leaf 1023219429)
 (.leaf 1023225298))
 (.node 1 (.leaf 1023242225)
 (.leaf 1023242275)))))
 (.node 8 (.node 4 (.node 2 (.node 1 (.leaf 1023275110)
 (.leaf 1023317595))
 (.node 1 (.leaf 1023323237)
 (.leaf 1023328015)))
 (.node 2 (.node 1 (.leaf 1023331812)
 (.leaf 1023369275))
 (.node 1 (.leaf 1023396261)
 (.leaf 1023413749))))
 (.node 4 (.node 2 (.node 1 (.leaf 1023424144)
 (.leaf 1023427796))
 (.node 1 (.leaf 1023441333)
 (.leaf 1023451627)))
 (.node 2 (.node 1 (.leaf 1023463374)
 (.leaf 1023483844))
 (.node 1 (.leaf 1023490074)
 (.leaf 1023498527)))))))
 (.node 32 (.node 16 (.node 8 (.node 4 (.node 2 (.node 1 (.leaf 1023520905)
 (.leaf 1023539973))
 (.node 1 (.leaf 1023545056)
 (.leaf 1023547377)))
 (.node 2 (.node 1 (.leaf 1023548856)
 (.leaf 1023552113))
 (.node 1 (.leaf 1023555434)
 (.leaf 1023562005))))
 (.node 4 (.node 2 (.node 1 (.leaf 1023568905)
 (.leaf 1023580445))
 (.node 1 (.leaf 1023583070)
 (.leaf 1023587519)))
 (.node 2 (.node 1 (.leaf 1023591244)
 (.leaf 1023616683))
 (.node 1 (.leaf 1023649047)
 (.leaf 1023665357)))))
 (.node 8 (.node 4 (.node 2 (.node 1 (.leaf 1023682707)
 (.leaf 1023684011))
 (.node 1 (.leaf 1023688811)
 (.leaf 1023692833)))
 (.node 2 (.node 1 (.leaf 1023707883)
 (.leaf 1023734551))
 (.node 1 (.leaf 1023773873)
 (.leaf 1023776601))))
 (.node 4 (.node 2 (.node 1 (.leaf 1023778461)
 (.leaf 1023804968))
 (.node 1 (.leaf 1023836763)
 (.leaf 1023837917)))
 (.node 2 (.node 1 (.leaf 1023848714)
 (.leaf 1023852418))
 (.node 1 (.leaf 1023862710)
 (.leaf 1023867685))))))
 (.node 16 (.node 8 (.node 4 (.node 2 (.node 1 (.leaf 1023872275)
 (.leaf 1023877233))
 (.node 1 (.leaf 1023880274)
 (.leaf 1023881998)))
 (.node 2 (.node 1 (.leaf 1023885968)
 (.leaf 1023887866))
 (.node 1 (.leaf 1023901734)
 (.leaf 1023907239))))
 (.node 4 (.node 2 (.node 1 (.leaf 1023935144)
 (.leaf 1023935146))
 (.node 1 (.leaf 1023953368)
 (.leaf 1023956931)))
 (.node 2 (.node 1 (.leaf 1023958968)
 (.leaf 1023959951))
 (.node 1 (.leaf 1023960324)
 (.leaf 1023970645)))))
 (.node 8 (.node 4 (.node 2 (.node 1 (.leaf 1023993475)
 (.leaf 1023995929))
 (.node 1 (.leaf 1024012209)
 (.leaf 1024023157)))
 (.node 2 (.node 1 (.leaf 1024032595)
 (.leaf 1024043415))
 (.node 1 (.leaf 1024047206)
 (.leaf 1024047974))))
 (.node 4 (.node 2 (.node 1 (.leaf 1024063658)
 (.leaf 1024079194))
 (.node 1 (.leaf 1024086867)
 (.leaf 1024088698)))
 (.node 2 (.node 1 (.leaf 1024103973)
 (.leaf 1024117046))
 (.node 1 (.leaf 1024122744)
 (.leaf 1024126977))))))))))
 (.node 256 (.node 128 (.node 64 (.node 32 (.node 16 (.node 8 (.node 4 (.node 2 (.node 1 (.leaf 1024128092)
 (.leaf 1024144126))
 (.node 1 (.leaf 1024164795)
 (.leaf 1024166039)))
 (.node 2 (.node 1 (.leaf 1024172241)
 (.leaf 1024193164))
 (.node 1 (.leaf 1024204941)
 (.leaf 1024211182))))
 (.node 4 (.node 2 (.node 1 (.leaf 1024211618)
 (.leaf 1024211886))
 (.node 1 (.leaf 1024224029)
 (.leaf 1024243702)))
 (.node 2 (.node 1 (.leaf 1024248677)
 (.leaf 1024248879))
 (.node 1 (.leaf 1024257390)
 (.leaf 1024263820)))))
 (.node 8 (.node 4 (.node 2 (.node 1 (.leaf 1024268439)
 (.leaf 1024282346))
 (.node 1 (.leaf 1024290197)
 (.leaf 1024308160)))
 (.node 2 (.node 1 (.leaf 1024319119)
 (.leaf 1024334339))
 (.node 1 (.leaf 1024340552)
 (.leaf 1024343176))))
 (.node 4 (.node 2 (.node 1 (.leaf 1024347630)
 (.leaf 1024373497))
 (.node 1 (.leaf 1024382777)
 (.leaf 1024414167)))
 (.node 2 (.node 1 (.leaf 1024416038)
 (.leaf 1024420567))
 (.node 1 (.leaf 1024422350)
 (.leaf 1024424097))))))
 (.node 16 (.node 8 (.node 4 (.node 2 (.node 1 (.leaf 1024434446)
 (.leaf 1024435532))
 (.node 1 (.leaf 1024449391)
 (.leaf 1024456090)))
 (.node 2 (.node 1 (.leaf 1024456528)
 (.leaf 1024479562))
 (.node 1 (.leaf 1024487506)
 (.leaf 1024488683))))
 (.node 4 (.node 2 (.node 1 (.leaf 1024506116)
 (.leaf 1024508685))
 (.node 1 (.leaf 1024510062)
 (.leaf 1024512794)))
 (.node 2 (.node 1 (.leaf 1024523662)
 (.leaf 1024568729))
 (.node 1 (.leaf 1024573484)
 (.leaf 1024602861)))))
 (.node 8 (.node 4 (.node 2 (.node 1 (.leaf 1024627873)
 (.leaf 1024628788))
 (.node 1 (.leaf 1024629037)
 (.leaf 1024634951)))
 (.node 2 (.node 1 (.leaf 1024640119)
 (.leaf 1024642811))
 (.node 1 (.leaf 1024649526)
 (.leaf 1024699861))))
 (.node 4 (.node 2 (.node 1 (.leaf 1024744354)
 (.leaf 1024772828))
 (.node 1 (.leaf 1024782926)
 (.leaf 1024792548)))
 (.node 2 (.node 1 (.leaf 1024802620)
 (.leaf 1024825586))
 (.node 1 (.leaf 1024833928)
 (.leaf 1024851516)))))))
 (.node 32 (.node 16 (.node 8 (.node 4 (.node 2 (.node 1 (.leaf 1024893941)
 (.leaf 1024898737))
 (.node 1 (.leaf 1024900224)
 (.leaf 1024936152)))
 (.node 2 (.node 1 (.leaf 1024942349)
 (.leaf 1024966527))
 (.node 1 (.leaf 1025004666)
 (.leaf 1025009987))))
 (.node 4 (.node 2 (.node 1 (.leaf 1025030166)
 (.leaf 1025032861))
 (.node 1 (.leaf 1025050932)
 (.leaf 1025052636)))
 (.node 2 (.node 1 (.leaf 1025132259)
 (.leaf 1025142710))
 (.node 1 (.leaf 1025148086)
 (.leaf 1025171341)))))
 (.node 8 (.node 4 (.node 2 (.node 1 (.leaf 1025181424)
 (.leaf 1025185289))
 (.node 1 (.leaf 1025195017)
 (.leaf 1025206863)))
 (.node 2 (.node 1 (.leaf 1025210560)
 (.leaf 1025243094))
 (.node 1 (.leaf 1025248874)
 (.leaf 1025249890))))
 (.node 4 (.node 2 (.node 1 (.leaf 1025255744)
 (.leaf 1025262208))
 (.node 1 (.leaf 1025286089)
 (.leaf 1025306671)))
 (.node 2 (.node 1 (.leaf 1025310512)
 (.leaf 1025323795))
 (.node 1 (.leaf 1025336011)
 (.leaf 1025337927))))))
 (.node 16 (.node 8 (.node 4 (.node 2 (.node 1 (.leaf 1025339275)
 (.leaf 1025356646))
 (.node 1 (.leaf 1025358703)
 (.leaf 1025364325)))
 (.node 2 (.node 1 (.leaf 1025380089)
 (.leaf 1025386265))
 (.node 1 (.leaf 1025388111)
 (.leaf 1025398745))))
 (.node 4 (.node 2 (.node 1 (.leaf 1025403788)
 (.leaf 1025440754))
 (.node 1 (.leaf 1025442001)
 (.leaf 1025442345)))
 (.node 2 (.node 1 (.leaf 1025475629)
 (.leaf 1025483042))
 (.node 1 (.leaf 1025501266)
 (.leaf 1025501489)))))
 (.node 8 (.node 4 (.node 2 (.node 1 (.leaf 1025510649)
 (.leaf 1025526332))
 (.node 1 (.leaf 1025552929)
 (.leaf 1025562809)))
 (.node 2 (.node 1 (.leaf 1025572280)
 (.leaf 1025581351))
 (.node 1 (.leaf 1025590660)
 (.leaf 1025603277))))
 (.node 4 (.node 2 (.node 1 (.leaf 1025639850)
 (.leaf 1025646195))
 (.node 1 (.leaf 1025679934)
 (.leaf 1025688440)))
 (.node 2 (.node 1 (.leaf 1025720221)
 (.leaf 1025802773))
 (.node 1 (.leaf 1025825195)
 (.leaf 1025850754))))))))
 (.node 64 (.node 32 (.node 16 (.node 8 (.node 4 (.node 2 (.node 1 (.leaf 1025867683)
 (.leaf 1025924864))
 (.node 1 (.leaf 1025939523)
 (.leaf 1026022809)))
 (.node 2 (.node 1 (.leaf 1026033069)
 (.leaf 1026035164))
 (.node 1 (.leaf 1026041615)
 (.leaf 1026044134))))
 (.node 4 (.node 2 (.node 1 (.leaf 1026058777)
 (.leaf 1026060183))
 (.node 1 (.leaf 1026078916)
 (.leaf 1026096462)))
 (.node 2 (.node 1 (.leaf 1026118653)
 (.leaf 1026124136))
 (.node 1 (.leaf 1026139060)
 (.leaf 1026159922)))))
 (.node 8 (.node 4 (.node 2 (.node 1 (.leaf 1026176752)
 (.leaf 1026217434))
 (.node 1 (.leaf 1026243329)
 (.leaf 1026265558)))
 (.node 2 (.node 1 (.leaf 1026273005)
 (.leaf 1026288951))
 (.node 1 (.leaf 1026292522)
 (.leaf 1026324180))))
 (.node 4 (.node 2 (.node 1 (.leaf 1026334956)
 (.leaf 1026339642))
 (.node 1 (.leaf 1026354350)
 (.leaf 1026374797)))
 (.node 2 (.node 1 (.leaf 1026375494)
 (.leaf 1026419433))
 (.node 1 (.leaf 1026421616)
 (.leaf 1026443820))))))
 (.node 16 (.node 8 (.node 4 (.node 2 (.node 1 (.leaf 1026463046)
 (.leaf 1026466254))
 (.node 1 (.leaf 1026475054)
 (.leaf 1026493876)))
 (.node 2 (.node 1 (.leaf 1026508969)
 (.leaf 1026513547))
 (.node 1 (.leaf 1026545160)
 (.leaf 1026575110))))
 (.node 4 (.node 2 (.node 1 (.leaf 1026612161)
 (.leaf 1026618020))
 (.node 1 (.leaf 1026618168)
 (.leaf 1026632096)))
 (.node 2 (.node 1 (.leaf 1026645723)
 (.leaf 1026674842))
 (.node 1 (.leaf 1026708658)
 (.leaf 1026709992)))))
 (.node 8 (.node 4 (.node 2 (.node 1 (.leaf 1026760243)
 (.leaf 1026786390))
 (.node 1 (.leaf 1026808788)
 (.leaf 1026826965)))
 (.node 2 (.node 1 (.leaf 1026835437)
 (.leaf 1026846175))
 (.node 1 (.leaf 1026851183)
 (.leaf 1026873053))))
 (.node 4 (.node 2 (.node 1 (.leaf 1026897073)
 (.leaf 1026899343))
 (.node 1 (.leaf 1026903074)
 (.leaf 1026938992)))
 (.node 2 (.node 1 (.leaf 1027011795)
 (.leaf 1027017679))
 (.node 1 (.leaf 1027038289)
 (.leaf 1027046758)))))))
 (.node 32 (.node 16 (.node 8 (.node 4 (.node 2 (.node 1 (.leaf 1027065965)
 (.leaf 1027096387))
 (.node 1 (.leaf 1027111046)
 (.leaf 1027158530)))
 (.node 2 (.node 1 (.leaf 1027205244)
 (.leaf 1027263310))
 (.node 1 (.leaf 1027271255)
 (.leaf 1027314996))))
 (.node 4 (.node 2 (.node 1 (.leaf 1027315006)
 (.leaf 1027323199))
 (.node 1 (.leaf 1027356366)
 (.leaf 1027362852)))
 (.node 2 (.node 1 (.leaf 1027373164)
 (.leaf 1027397698))
 (.node 1 (.leaf 1027408999)
 (.leaf 1027416966)))))
 (.node 8 (.node 4 (.node 2 (.node 1 (.leaf 1027466205)
 (.leaf 1027471956))
 (.node 1 (.leaf 1027482370)
 (.leaf 1027485917)))
 (.node 2 (.node 1 (.leaf 1027500005)
 (.leaf 1027503181))
 (.node 1 (.leaf 1027525989)
 (.leaf 1027545707))))
 (.node 4 (.node 2 (.node 1 (.leaf 1027561478)
 (.leaf 1027595724))
 (.node 1 (.leaf 1027599640)
 (.leaf 1027603403)))
 (.node 2 (.node 1 (.leaf 1027626768)
 (.leaf 1027695945))
 (.node 1 (.leaf 1027728221)
 (.leaf 1027738098))))))
 (.node 16 (.node 8 (.node 4 (.node 2 (.node 1 (.leaf 1027751116)
 (.leaf 1027771121))
 (.node 1 (.leaf 1027778788)
 (.leaf 1027796115)))
 (.node 2 (.node 1 (.leaf 1027805964)
 (.leaf 1027811422))
 (.node 1 (.leaf 1027843670)
 (.leaf 1027878290))))
 (.node 4 (.node 2 (.node 1 (.leaf 1027914240)
 (.leaf 1027934833))
 (.node 1 (.leaf 1027942987)
 (.leaf 1028033932)))
 (.node 2 (.node 1 (.leaf 1028129576)
 (.leaf 1028148608))
 (.node 1 (.leaf 1028148914)
 (.leaf 1028150027)))))
 (.node 8 (.node 4 (.node 2 (.node 1 (.leaf 1028150593)
 (.leaf 1028152522))
 (.node 1 (.leaf 1028160855)
 (.leaf 1028202538)))
 (.node 2 (.node 1 (.leaf 1028207041)
 (.leaf 1028214719))
 (.node 1 (.leaf 1028228272)
 (.leaf 1028259669))))
 (.node 4 (.node 2 (.node 1 (.leaf 1028312171)
 (.leaf 1028373806))
 (.node 1 (.leaf 1028387141)
 (.leaf 1028391935)))
 (.node 2 (.node 1 (.leaf 1028419835)
 (.leaf 1028435582))
 (.node 1 (.leaf 1028447995)
 (.leaf 1028501871)))))))))
 (.node 128 (.node 64 (.node 32 (.node 16 (.node 8 (.node 4 (.node 2 (.node 1 (.leaf 1028543241)
 (.leaf 1028575311))
 (.node 1 (.leaf 1028651905)
 (.leaf 1028671793)))
 (.node 2 (.node 1 (.leaf 1028672019)
 (.leaf 1028673332))
 (.node 1 (.leaf 1028689929)
 (.leaf 1028705405))))
 (.node 4 (.node 2 (.node 1 (.leaf 1028715040)
 (.leaf 1028734765))
 (.node 1 (.leaf 1028738714)
 (.leaf 1028767043)))
 (.node 2 (.node 1 (.leaf 1028818984)
 (.leaf 1028822831))
 (.node 1 (.leaf 1028854770)
 (.leaf 1028867268)))))
 (.node 8 (.node 4 (.node 2 (.node 1 (.leaf 1028908861)
 (.leaf 1028927476))
 (.node 1 (.leaf 1028944807)
 (.leaf 1028968182)))
 (.node 2 (.node 1 (.leaf 1028970554)
 (.leaf 1028973106))
 (.node 1 (.leaf 1029052286)
 (.leaf 1029058939))))
 (.node 4 (.node 2 (.node 1 (.leaf 1029082756)
 (.leaf 1029102000))
 (.node 1 (.leaf 1029113691)
 (.leaf 1029146806)))
 (.node 2 (.node 1 (.leaf 1029149833)
 (.leaf 1029179712))
 (.node 1 (.leaf 1029182811)
 (.leaf 1029205728))))))
 (.node 16 (.node 8 (.node 4 (.node 2 (.node 1 (.leaf 1029244064)
 (.leaf 1029303173))
 (.node 1 (.leaf 1029316505)
 (.leaf 1029336210)))
 (.node 2 (.node 1 (.leaf 1029351956)
 (.leaf 1029366580))
 (.node 1 (.leaf 1029369757)
 (.leaf 1029380819))))
 (.node 4 (.node 2 (.node 1 (.leaf 1029432399)
 (.leaf 1029463818))
 (.node 1 (.leaf 1029501911)
 (.leaf 1029501925)))
 (.node 2 (.node 1 (.leaf 1029502244)
 (.leaf 1029502518))
 (.node 1 (.leaf 1029534728)
 (.leaf 1029539007)))))
 (.node 8 (.node 4 (.node 2 (.node 1 (.leaf 1029564799)
 (.leaf 1029576648))
 (.node 1 (.leaf 1029647723)
 (.leaf 1029662318)))
 (.node 2 (.node 1 (.leaf 1029665512)
 (.leaf 1029693145))
 (.node 1 (.leaf 1029763659)
 (.leaf 1029781734))))
 (.node 4 (.node 2 (.node 1 (.leaf 1029810222)
 (.leaf 1029850159))
 (.node 1 (.leaf 1029863934)
 (.leaf 1029972604)))
 (.node 2 (.node 1 (.leaf 1030015825)
 (.leaf 1030022922))
 (.node 1 (.leaf 1030059077)
 (.leaf 1030084298)))))))
 (.node 32 (.node 16 (.node 8 (.node 4 (.node 2 (.node 1 (.leaf 1030130680)
 (.leaf 1030150827))
 (.node 1 (.leaf 1030159275)
 (.leaf 1030264879)))
 (.node 2 (.node 1 (.leaf 1030274559)
 (.leaf 1030280095))
 (.node 1 (.leaf 1030291306)
 (.leaf 1030317717))))
 (.node 4 (.node 2 (.node 1 (.leaf 1030337755)
 (.leaf 1030368252))
 (.node 1 (.leaf 1030375556)
 (.leaf 1030381229)))
 (.node 2 (.node 1 (.leaf 1030474857)
 (.leaf 1030486311))
 (.node 1 (.leaf 1030521784)
 (.leaf 1030563669)))))
 (.node 8 (.node 4 (.node 2 (.node 1 (.leaf 1030603687)
 (.leaf 1030610835))
 (.node 1 (.leaf 1030630841)
 (.leaf 1030667221)))
 (.node 2 (.node 1 (.leaf 1030705746)
 (.leaf 1030707997))
 (.node 1 (.leaf 1030712949)
 (.leaf 1030743076))))
 (.node 4 (.node 2 (.node 1 (.leaf 1030855214)
 (.leaf 1030865403))
 (.node 1 (.leaf 1030898645)
 (.leaf 1030943350)))
 (.node 2 (.node 1 (.leaf 1030946939)
 (.leaf 1030989326))
 (.node 1 (.leaf 1030992466)
 (.leaf 1031163679))))))
 (.node 16 (.node 8 (.node 4 (.node 2 (.node 1 (.leaf 1031198701)
 (.leaf 1031265815))
 (.node 1 (.leaf 1031299599)
 (.leaf 1031430715)))
 (.node 2 (.node 1 (.leaf 1031453165)
 (.leaf 1031525307))
 (.node 1 (.leaf 1031535051)
 (.leaf 1031548766))))
 (.node 4 (.node 2 (.node 1 (.leaf 1031551639)
 (.leaf 1031609744))
 (.node 1 (.leaf 1031666817)
 (.leaf 1031727552)))
 (.node 2 (.node 1 (.leaf 1031793735)
 (.leaf 1031820594))
 (.node 1 (.leaf 1031861915)
 (.leaf 1031863766)))))
 (.node 8 (.node 4 (.node 2 (.node 1 (.leaf 1031873358)
 (.leaf 1031885227))
 (.node 1 (.leaf 1031894366)
 (.leaf 1031973902)))
 (.node 2 (.node 1 (.leaf 1031990711)
 (.leaf 1032068490))
 (.node 1 (.leaf 1032078729)
 (.leaf 1032099059))))
 (.node 4 (.node 2 (.node 1 (.leaf 1032118072)
 (.leaf 1032204865))
 (.node 1 (.leaf 1032216327)
 (.leaf 1032226525)))
 (.node 2 (.node 1 (.leaf 1032272268)
 (.leaf 1032274311))
 (.node 1 (.leaf 1032288839)
 (.leaf 1032313090))))))))
 (.node 64 (.node 32 (.node 16 (.node 8 (.node 4 (.node 2 (.node 1 (.leaf 1032345539)
 (.leaf 1032400305))
 (.node 1 (.leaf 1032406804)
 (.leaf 1032453194)))
 (.node 2 (.node 1 (.leaf 1032472703)
 (.leaf 1032501868))
 (.node 1 (.leaf 1032511352)
 (.leaf 1032522146))))
 (.node 4 (.node 2 (.node 1 (.leaf 1032562446)
 (.leaf 1032625838))
 (.node 1 (.leaf 1032649808)
 (.leaf 1032652428)))
 (.node 2 (.node 1 (.leaf 1032662242)
 (.leaf 1032682180))
 (.node 1 (.leaf 1032718657)
 (.leaf 1032777878)))))
 (.node 8 (.node 4 (.node 2 (.node 1 (.leaf 1032785983)
 (.leaf 1032817331))
 (.node 1 (.leaf 1032824737)
 (.leaf 1032868170)))
 (.node 2 (.node 1 (.leaf 1032871660)
 (.leaf 1032876114))
 (.node 1 (.leaf 1032877291)
 (.leaf 1032878285))))
 (.node 4 (.node 2 (.node 1 (.leaf 1032914632)
 (.leaf 1032972341))
 (.node 1 (.leaf 1032981634)
 (.leaf 1032989840)))
 (.node 2 (.node 1 (.leaf 1033004125)
 (.leaf 1033028727))
 (.node 1 (.leaf 1033039660)
 (.leaf 1033069306))))))
 (.node 16 (.node 8 (.node 4 (.node 2 (.node 1 (.leaf 1033130094)
 (.leaf 1033175092))
 (.node 1 (.leaf 1033191228)
 (.leaf 1033191300)))
 (.node 2 (.node 1 (.leaf 1033192748)
 (.leaf 1033200891))
 (.node 1 (.leaf 1033226444)
 (.leaf 1033229320))))
 (.node 4 (.node 2 (.node 1 (.leaf 1033243512)
 (.leaf 1033356461))
 (.node 1 (.leaf 1033421435)
 (.leaf 1033424619)))
 (.node 2 (.node 1 (.leaf 1033427443)
 (.leaf 1033432650))
 (.node 1 (.leaf 1033439659)
 (.leaf 1033452434)))))
 (.node 8 (.node 4 (.node 2 (.node 1 (.leaf 1033458783)
 (.leaf 1033461652))
 (.node 1 (.leaf 1033486478)
 (.leaf 1033539903)))
 (.node 2 (.node 1 (.leaf 1033569388)
 (.leaf 1033674522))
 (.node 1 (.leaf 1033697706)
 (.leaf 1033711257))))
 (.node 4 (.node 2 (.node 1 (.leaf 1033751342)
 (.leaf 1033769147))
 (.node 1 (.leaf 1033783738)
 (.leaf 1033787353)))
 (.node 2 (.node 1 (.leaf 1033857430)
 (.leaf 1033871916))
 (.node 1 (.leaf 1033908898)
 (.leaf 1033924912)))))))
 (.node 32 (.node 16 (.node 8 (.node 4 (.node 2 (.node 1 (.leaf 1033959739)
 (.leaf 1033979041))
 (.node 1 (.leaf 1034001358)
 (.leaf 1034021584)))
 (.node 2 (.node 1 (.leaf 1034033605)
 (.leaf 1034064655))
 (.node 1 (.leaf 1034077048)
 (.leaf 1034084853))))
 (.node 4 (.node 2 (.node 1 (.leaf 1034122270)
 (.leaf 1034174903))
 (.node 1 (.leaf 1034185250)
 (.leaf 1034228874)))
 (.node 2 (.node 1 (.leaf 1034312912)
 (.leaf 1034313385))
 (.node 1 (.leaf 1034378927)
 (.leaf 1034389534)))))
 (.node 8 (.node 4 (.node 2 (.node 1 (.leaf 1034393722)
 (.leaf 1034468960))
 (.node 1 (.leaf 1034477366)
 (.leaf 1034525559)))
 (.node 2 (.node 1 (.leaf 1034647514)
 (.leaf 1034655961))
 (.node 1 (.leaf 1034692444)
 (.leaf 1034743112))))
 (.node 4 (.node 2 (.node 1 (.leaf 1034745447)
 (.leaf 1034767776))
 (.node 1 (.leaf 1034849919)
 (.leaf 1034935793)))
 (.node 2 (.node 1 (.leaf 1035095009)
 (.leaf 1035158925))
 (.node 1 (.leaf 1035189396)
 (.leaf 1035232668))))))
 (.node 16 (.node 8 (.node 4 (.node 2 (.node 1 (.leaf 1035243092)
 (.leaf 1035291944))
 (.node 1 (.leaf 1035379890)
 (.leaf 1035425970)))
 (.node 2 (.node 1 (.leaf 1035474023)
 (.leaf 1035547138))
 (.node 1 (.leaf 1035579825)
 (.leaf 1035708290))))
 (.node 4 (.node 2 (.node 1 (.leaf 1035726887)
 (.leaf 1035776328))
 (.node 1 (.leaf 1035827164)
 (.leaf 1035883978)))
 (.node 2 (.node 1 (.leaf 1035920923)
 (.leaf 1036031849))
 (.node 1 (.leaf 1036087729)
 (.leaf 1036202895)))))
 (.node 8 (.node 4 (.node 2 (.node 1 (.leaf 1036276646)
 (.leaf 1036337539))
 (.node 1 (.leaf 1036346847)
 (.leaf 1036368905)))
 (.node 2 (.node 1 (.leaf 1036542482)
 (.leaf 1036549821))
 (.node 1 (.leaf 1036604881)
 (.leaf 1036759393))))
 (.node 4 (.node 2 (.node 1 (.leaf 1036923760)
 (.leaf 1037001620))
 (.node 1 (.leaf 1037009422)
 (.leaf 1037231145)))
 (.node 2 (.node 1 (.leaf 1037255876)
 (.leaf 1037311955))
 (.node 1 (.leaf 1037569583)
 (.leaf 1037595686)))))))))))))
 (.node 128 (.node 64 (.node 32 (.node 16 (.node 8 (.node 4 (.node 2 (.node 1 (.leaf 1037646895)
 (.leaf 1037711085))
 (.node 1 (.leaf 1037751452)
 (.leaf 1037763566)))
 (.node 2 (.node 1 (.leaf 1037931390)
 (.leaf 1037963458))
 (.node 1 (.leaf 1038000862)
 (.leaf 1038011889))))
 (.node 4 (.node 2 (.node 1 (.leaf 1038013706)
 (.leaf 1038080979))
 (.node 1 (.leaf 1038398592)
 (.leaf 1038538334)))
 (.node 2 (.node 1 (.leaf 1038541387)
 (.leaf 1038636422))
 (.node 1 (.leaf 1038687150)
 (.leaf 1038837523)))))
 (.node 8 (.node 4 (.node 2 (.node 1 (.leaf 1038837902)
 (.leaf 1038902426))
 (.node 1 (.leaf 1039044429)
 (.leaf 1039148794)))
 (.node 2 (.node 1 (.leaf 1039262802)
 (.leaf 1039270118))
 (.node 1 (.leaf 1039384958)
 (.leaf 1039445757))))
 (.node 4 (.node 2 (.node 1 (.leaf 1039544877)
 (.leaf 1039762967))
 (.node 1 (.leaf 1039793423)
 (.leaf 1039846272)))
 (.node 2 (.node 1 (.leaf 1039965989)
 (.leaf 1040010219))
 (.node 1 (.leaf 1040151295)
 (.leaf 1040189870))))))
 (.node 16 (.node 8 (.node 4 (.node 2 (.node 1 (.leaf 1040228843)
 (.leaf 1040307503))
 (.node 1 (.leaf 1040328508)
 (.leaf 1040436745)))
 (.node 2 (.node 1 (.leaf 1040457843)
 (.leaf 1040480428))
 (.node 1 (.leaf 1040485933)
 (.leaf 1040491440))))
 (.node 4 (.node 2 (.node 1 (.leaf 1040541235)
 (.leaf 1040564730))
 (.node 1 (.leaf 1040571749)
 (.leaf 1040628054)))
 (.node 2 (.node 1 (.leaf 1040776392)
 (.leaf 1040853398))
 (.node 1 (.leaf 1040892684)
 (.leaf 1040921950)))))
 (.node 8 (.node 4 (.node 2 (.node 1 (.leaf 1040976458)
 (.leaf 1040983982))
 (.node 1 (.leaf 1041084026)
 (.leaf 1041120989)))
 (.node 2 (.node 1 (.leaf 1041121858)
 (.leaf 1041149195))
 (.node 1 (.leaf 1041213384)
 (.leaf 1041237670))))
 (.node 4 (.node 2 (.node 1 (.leaf 1041279667)
 (.leaf 1041301923))
 (.node 1 (.leaf 1041331583)
 (.leaf 1041366787)))
 (.node 2 (.node 1 (.leaf 1041502171)
 (.leaf 1041550044))
 (.node 1 (.leaf 1041579908)
 (.leaf 1041595654)))))))
 (.node 32 (.node 16 (.node 8 (.node 4 (.node 2 (.node 1 (.leaf 1041622558)
 (.leaf 1041627029))
 (.node 1 (.leaf 1041649700)
 (.leaf 1041739602)))
 (.node 2 (.node 1 (.leaf 1041853859)
 (.leaf 1041875086))
 (.node 1 (.leaf 1041876896)
 (.leaf 1041935814))))
 (.node 4 (.node 2 (.node 1 (.leaf 1041939134)
 (.leaf 1042047767))
 (.node 1 (.leaf 1042443520)
 (.leaf 1042498940)))
 (.node 2 (.node 1 (.leaf 1042510035)
 (.leaf 1042586818))
 (.node 1 (.leaf 1042640780)
 (.leaf 1042723406)))))
 (.node 8 (.node 4 (.node 2 (.node 1 (.leaf 1042850212)
 (.leaf 1042890176))
 (.node 1 (.leaf 1042927020)
 (.leaf 1042992930)))
 (.node 2 (.node 1 (.leaf 1043072148)
 (.leaf 1043204603))
 (.node 1 (.leaf 1043305457)
 (.leaf 1043472376))))
 (.node 4 (.node 2 (.node 1 (.leaf 1043508701)
 (.leaf 1044046662))
 (.node 1 (.leaf 1044095399)
 (.leaf 1044171555)))
 (.node 2 (.node 1 (.leaf 1044238636)
 (.leaf 1044782857))
 (.node 1 (.leaf 1044791289)
 (.leaf 1045105573))))))
 (.node 16 (.node 8 (.node 4 (.node 2 (.node 1 (.leaf 1046088022)
 (.leaf 1046215682))
 (.node 1 (.leaf 1046385159)
 (.leaf 1046897057)))
 (.node 2 (.node 1 (.leaf 1046933937)
 (.leaf 1047087260))
 (.node 1 (.leaf 1047152405)
 (.leaf 1048668236))))
 (.node 4 (.node 2 (.node 1 (.leaf 1048776582)
 (.leaf 1049015322))
 (.node 1 (.leaf 1049395007)
 (.leaf 1049459330)))
 (.node 2 (.node 1 (.leaf 1049469184)
 (.leaf 1049587753))
 (.node 1 (.leaf 1049750480)
 (.leaf 1049988560)))))
 (.node 8 (.node 4 (.node 2 (.node 1 (.leaf 1050049081)
 (.leaf 1050133107))
 (.node 1 (.leaf 1050183759)
 (.leaf 1050334287)))
 (.node 2 (.node 1 (.leaf 1050347977)
 (.leaf 1050464754))
 (.node 1 (.leaf 1050724625)
 (.leaf 1050788634))))
 (.node 4 (.node 2 (.node 1 (.leaf 1050909894)
 (.leaf 1051347064))
 (.node 1 (.leaf 1051400536)
 (.leaf 1052116782)))
 (.node 2 (.node 1 (.leaf 1052841628)
 (.leaf 1053545414))
 (.node 1 (.leaf 1054974410)
 (.leaf 1055044934))))))))
 (.node 2 (.node 1 (.leaf 1055299155)
 (.leaf 1055379480))
 (.node 1 (.leaf 1055804694)
 (.leaf 1056172089)))))

/-- Values of the groundwater recharge factor, bits of the binary32 number. -/
def factorData : DTree :=
 (.node 8192 (.node 4096 (.node 2048 (.node 1024 (.node 512 (.node 256 (.node 128 (.node 64 (.node 32 (.node 16 (.node 8 (.node 4 (.node 2 (.node 1 (.leaf 0)
 (.leaf 990712053))
 (.node 1 (.leaf 990937538)
 (.leaf 991388510)))
 (.node 2 (.node 1 (.leaf 991871694)
 (.leaf 992200259))
 (.node 1 (.leaf 992966910)
 (.leaf 993095761))))
 (.node 4 (.node 2 (.node 1 (.leaf 993707793)
 (.leaf 994013809))
 (.node 1 (.leaf 994319825)
 (.leaf 994410020)))
 (.node 2 (.node 1 (.leaf 994625842)
 (.leaf 994931859))
 (.node 1 (.leaf 995176671)
 (.leaf 995543891)))))
 (.node 8 (.node 4 (.node 2 (.node 1 (.leaf 995849907)
 (.leaf 995988420))
 (.node 1 (.leaf 996033517)
 (.leaf 996155924)))
 (.node 2 (.node 1 (.leaf 996461940)
 (.leaf 996767956))
 (.node 1 (.leaf 997251140)
 (.leaf 997379989))))
 (.node 4 (.node 2 (.node 1 (.leaf 997379990)
 (.leaf 997686006))
 (.node 1 (.leaf 997882499)
 (.leaf 997882502)))
 (.node 2 (.node 1 (.leaf 997992022)
 (.leaf 998271195))
 (.node 1 (.leaf 998424203)
 (.leaf 998424204))))))
 (.node 16 (.node 8 (.node 4 (.node 2 (.node 1 (.leaf 998577211)
 (.leaf 998638415))
 (.node 1 (.leaf 998694787)
 (.leaf 998730220)))
 (.node 2 (.node 1 (.leaf 998852626)
 (.leaf 998883228))
 (.node 1 (.leaf 998944432)
 (.leaf 999010467))))
 (.node 4 (.node 2 (.node 1 (.leaf 999036236)
 (.leaf 999036237))
 (.node 1 (.leaf 999066838)
 (.leaf 999087239)))
 (.node 2 (.node 1 (.leaf 999138241)
 (.leaf 999189244))
 (.node 1 (.leaf 999240247)
 (.leaf 999281050)))))
 (.node 8 (.node 4 (.node 2 (.node 1 (.leaf 999291249)
 (.leaf 999326146))
 (.node 1 (.leaf 999342253)
 (.leaf 999393255)))
 (.node 2 (.node 1 (.leaf 999444258)
 (.leaf 999495261))
 (.node 1 (.leaf 999546264)
 (.leaf 999597266))))
 (.node 4 (.node 2 (.node 1 (.leaf 999709472)
 (.leaf 999777118))
 (.node 1 (.leaf 999801278)
 (.leaf 999923683)))
 (.node 2 (.node 1 (.leaf 999954286)
 (.leaf 999957507))
 (.node 1 (.leaf 1000005288)
 (.leaf 1000056291)))))))
 (.node 32 (.node 16 (.node 8 (.node 4 (.node 2 (.node 1 (.leaf 1000137896)
 (.leaf 1000260302))
 (.node 1 (.leaf 1000273188)
 (.leaf 1000352107)))
 (.node 2 (.node 1 (.leaf 1000566318)
 (.leaf 1000588867))
 (.node 1 (.leaf 1000780529)
 (.leaf 1000872335))))
 (.node 4 (.node 2 (.node 1 (.leaf 1000994741)
 (.leaf 1000994742))
 (.node 1 (.leaf 1001208953)
 (.leaf 1001220228)))
 (.node 2 (.node 1 (.leaf 1001280357)
 (.leaf 1001331360))
 (.node 1 (.leaf 1001355518)
 (.leaf 1001423164)))))
 (.node 8 (.node 4 (.node 2 (.node 1 (.leaf 1001484369)
 (.leaf 1001637375))
 (.node 1 (.leaf 1001851587)
 (.leaf 1001851589)))
 (.node 2 (.node 1 (.leaf 1002065798)
 (.leaf 1002096401))
 (.node 1 (.leaf 1002167268)
 (.leaf 1002280010))))
 (.node 4 (.node 2 (.node 1 (.leaf 1002402417)
 (.leaf 1002494221))
 (.node 1 (.leaf 1002708433)
 (.leaf 1002708434)))
 (.node 2 (.node 1 (.leaf 1002779836)
 (.leaf 1002798628))
 (.node 1 (.leaf 1002861442)
 (.leaf 1002912444))))))
 (.node 16 (.node 8 (.node 4 (.node 2 (.node 1 (.leaf 1002922644)
 (.leaf 1002994048))
 (.node 1 (.leaf 1003014450)
 (.leaf 1003065451)))
 (.node 2 (.node 1 (.leaf 1003208260)
 (.leaf 1003279664))
 (.node 1 (.leaf 1003320467)
 (.leaf 1003351067))))
 (.node 4 (.node 2 (.node 1 (.leaf 1003565279)
 (.leaf 1003626483))
 (.node 1 (.leaf 1003708086)
 (.leaf 1003745669)))
 (.node 2 (.node 1 (.leaf 1003771438)
 (.leaf 1003850894))
 (.node 1 (.leaf 1003932499)
 (.leaf 1003993702)))))
 (.node 8 (.node 4 (.node 2 (.node 1 (.leaf 1004061349)
 (.leaf 1004177311))
 (.node 1 (.leaf 1004238515)
 (.leaf 1004391525)))
 (.node 2 (.node 1 (.leaf 1004422125)
 (.leaf 1004468029))
 (.node 1 (.leaf 1004544532)
 (.leaf 1004544533))))
 (.node 4 (.node 2 (.node 1 (.leaf 1004728141)
 (.leaf 1004850548))
 (.node 1 (.leaf 1005008389)
 (.leaf 1005156564)))
 (.node 2 (.node 1 (.leaf 1005156566)
 (.leaf 1005278971))
 (.node 1 (.leaf 1005462581)
 (.leaf 1005635990))))))))
 (.node 64 (.node 32 (.node 16 (.node 8 (.node 4 (.node 2 (.node 1 (.leaf 1005639749)
 (.leaf 1005766021))
 (.node 1 (.leaf 1005768597)
 (.leaf 1005768598)))
 (.node 2 (.node 1 (.leaf 1005955429)
 (.leaf 1006074614))
 (.node 1 (.leaf 1006135818)
 (.leaf 1006271110))))
 (.node 4 (.node 2 (.node 1 (.leaf 1006380630)
 (.leaf 1006380631))
 (.node 1 (.leaf 1006564240)
 (.leaf 1006659803)))
 (.node 2 (.node 1 (.leaf 1006659804)
 (.leaf 1006748388))
 (.node 1 (.leaf 1006767714)
 (.leaf 1006767715)))))
 (.node 8 (.node 4 (.node 2 (.node 1 (.leaf 1006792679)
 (.leaf 1006812811))
 (.node 1 (.leaf 1006812812)
 (.leaf 1006965820)))
 (.node 2 (.node 1 (.leaf 1007027023)
 (.leaf 1007083394))
 (.node 1 (.leaf 1007083395)
 (.leaf 1007118828))))
 (.node 4 (.node 2 (.node 1 (.leaf 1007207412)
 (.leaf 1007241234))
 (.node 1 (.leaf 1007271836)
 (.leaf 1007348340)))
 (.node 2 (.node 1 (.leaf 1007424844)
 (.leaf 1007424845))
 (.node 1 (.leaf 1007455446)
 (.leaf 1007473163))))))
 (.node 16 (.node 8 (.node 4 (.node 2 (.node 1 (.leaf 1007475847)
 (.leaf 1007498288))
 (.node 1 (.leaf 1007521481)
 (.leaf 1007521482)))
 (.node 2 (.node 1 (.leaf 1007540003)
 (.leaf 1007577852))
 (.node 1 (.leaf 1007624559)
 (.leaf 1007654357))))
 (.node 4 (.node 2 (.node 1 (.leaf 1007669658)
 (.leaf 1007679857))
 (.node 1 (.leaf 1007714755)
 (.leaf 1007832866)))
 (.node 2 (.node 1 (.leaf 1007883869)
 (.leaf 1007934872))
 (.node 1 (.leaf 1007967299)
 (.leaf 1008036072)))))
 (.node 8 (.node 4 (.node 2 (.node 1 (.leaf 1008036877)
 (.leaf 1008086806))
 (.node 1 (.leaf 1008098080)
 (.leaf 1008113382)))
 (.node 2 (.node 1 (.leaf 1008188275)
 (.leaf 1008189886))
 (.node 1 (.leaf 1008312291)
 (.leaf 1008342894))))
 (.node 4 (.node 2 (.node 1 (.leaf 1008346115)
 (.leaf 1008393896))
 (.node 1 (.leaf 1008419399)
 (.leaf 1008451611)))
 (.node 2 (.node 1 (.leaf 1008503956)
 (.leaf 1008526504))
 (.node 1 (.leaf 1008572406)
 (.leaf 1008580057)))))))
 (.node 32 (.node 16 (.node 8 (.node 4 (.node 2 (.node 1 (.leaf 1008633610)
 (.leaf 1008648910))
 (.node 1 (.leaf 1008740715)
 (.leaf 1008801918)))
 (.node 2 (.node 1 (.leaf 1008851203)
 (.leaf 1008898555))
 (.node 1 (.leaf 1008954926)
 (.leaf 1008954927))))
 (.node 4 (.node 2 (.node 1 (.leaf 1008977475)
 (.leaf 1009011299))
 (.node 1 (.leaf 1009031430)
 (.leaf 1009067670)))
 (.node 2 (.node 1 (.leaf 1009124041)
 (.leaf 1009169137))
 (.node 1 (.leaf 1009180413)
 (.leaf 1009260943)))))
 (.node 8 (.node 4 (.node 2 (.node 1 (.leaf 1009293156)
 (.leaf 1009383349))
 (.node 1 (.leaf 1009383350)
 (.leaf 1009514131)))
 (.node 2 (.node 1 (.leaf 1009536357)
 (.leaf 1009597561))
 (.node 1 (.leaf 1009608835)
 (.leaf 1009608836))))
 (.node 4 (.node 2 (.node 1 (.leaf 1009618982)
 (.leaf 1009719967))
 (.node 1 (.leaf 1009719968)
 (.leaf 1009735108)))
 (.node 2 (.node 1 (.leaf 1009811772)
 (.leaf 1009811773))
 (.node 1 (.leaf 1009840764)
 (.leaf 1009845595))))))
 (.node 16 (.node 8 (.node 4 (.node 2 (.node 1 (.leaf 1009872975)
 (.leaf 1009872977))
 (.node 1 (.leaf 1009949479)
 (.leaf 1009961560)))
 (.node 2 (.node 1 (.leaf 1010025983)
 (.leaf 1010025984))
 (.node 1 (.leaf 1010082356)
 (.leaf 1010177060))))
 (.node 4 (.node 2 (.node 1 (.leaf 1010178992)
 (.leaf 1010212010))
 (.node 1 (.leaf 1010223284)
 (.leaf 1010240195)))
 (.node 2 (.node 1 (.leaf 1010240196)
 (.leaf 1010240197))
 (.node 1 (.leaf 1010274019)
 (.leaf 1010398036)))))
 (.node 8 (.node 4 (.node 2 (.node 1 (.leaf 1010408505)
 (.leaf 1010454406))
 (.node 1 (.leaf 1010454408)
 (.leaf 1010460045)))
 (.node 2 (.node 1 (.leaf 1010485009)
 (.leaf 1010555875))
 (.node 1 (.leaf 1010613858)
 (.leaf 1010619012))))
 (.node 4 (.node 2 (.node 1 (.leaf 1010631897)
 (.leaf 1010638017))
 (.node 1 (.leaf 1010668618)
 (.leaf 1010742707)))
 (.node 2 (.node 1 (.leaf 1010791025)
 (.leaf 1010792636))
 (.node 1 (.leaf 1010867529)
 (.leaf 1010871556)))))))))
 (.node 128 (.node 64 (.node 32 (.node 16 (.node 8 (.node 4 (.node 2 (.node 1 (.leaf 1010882829)
 (.leaf 1010907795))
 (.node 1 (.leaf 1010913432)
 (.leaf 1010989936)))
 (.node 2 (.node 1 (.leaf 1011097041)
 (.leaf 1011097042))
 (.node 1 (.leaf 1011168444)
 (.leaf 1011187236))))
 (.node 4 (.node 2 (.node 1 (.leaf 1011188845)
 (.leaf 1011188846))
 (.node 1 (.leaf 1011239848)
 (.leaf 1011250050)))
 (.node 2 (.node 1 (.leaf 1011290316)
 (.leaf 1011299979))
 (.node 1 (.leaf 1011311252)
 (.leaf 1011326553)))))
 (.node 8 (.node 4 (.node 2 (.node 1 (.leaf 1011367625)
 (.leaf 1011382656))
 (.node 1 (.leaf 1011403058)
 (.leaf 1011418358)))
 (.node 2 (.node 1 (.leaf 1011454059)
 (.leaf 1011476501))
 (.node 1 (.leaf 1011502916)
 (.leaf 1011502917))))
 (.node 4 (.node 2 (.node 1 (.leaf 1011525464)
 (.leaf 1011556066))
 (.node 1 (.leaf 1011570562)
 (.leaf 1011596868)))
 (.node 2 (.node 1 (.leaf 1011620329)
 (.leaf 1011632572))
 (.node 1 (.leaf 1011660756)
 (.leaf 1011709075))))))
 (.node 16 (.node 8 (.node 4 (.node 2 (.node 1 (.leaf 1011739675)
 (.leaf 1011785578))
 (.node 1 (.leaf 1011811079)
 (.leaf 1011818597)))
 (.node 2 (.node 1 (.leaf 1011882483)
 (.leaf 1011953887))
 (.node 1 (.leaf 1011976436)
 (.leaf 1012015090))))
 (.node 4 (.node 2 (.node 1 (.leaf 1012015091)
 (.leaf 1012015092))
 (.node 1 (.leaf 1012025290)
 (.leaf 1012060994)))
 (.node 2 (.node 1 (.leaf 1012091594)
 (.leaf 1012096694))
 (.node 1 (.leaf 1012125257)
 (.leaf 1012168099)))))
 (.node 8 (.node 4 (.node 2 (.node 1 (.leaf 1012168100)
 (.leaf 1012239502))
 (.node 1 (.leaf 1012290505)
 (.leaf 1012299632)))
 (.node 2 (.node 1 (.leaf 1012310906)
 (.leaf 1012321106))
 (.node 1 (.leaf 1012321107)
 (.leaf 1012382310))))
 (.node 4 (.node 2 (.node 1 (.leaf 1012386821)
 (.leaf 1012387948))
 (.node 1 (.leaf 1012449957)
 (.leaf 1012461231)))
 (.node 2 (.node 1 (.leaf 1012525118)
 (.leaf 1012607797))
 (.node 1 (.leaf 1012627123)
 (.leaf 1012681080)))))))
 (.node 32 (.node 16 (.node 8 (.node 4 (.node 2 (.node 1 (.leaf 1012703627)
 (.leaf 1012718929))
 (.node 1 (.leaf 1012780133)
 (.leaf 1012810733)))
 (.node 2 (.node 1 (.leaf 1012828773)
 (.leaf 1012856635))
 (.node 1 (.leaf 1012884177)
 (.leaf 1012933139))))
 (.node 4 (.node 2 (.node 1 (.leaf 1012933140)
 (.leaf 1012933141))
 (.node 1 (.leaf 1013024944)
 (.leaf 1013081315)))
 (.node 2 (.node 1 (.leaf 1013086147)
 (.leaf 1013160236))
 (.node 1 (.leaf 1013162654)
 (.leaf 1013239156)))))
 (.node 8 (.node 4 (.node 2 (.node 1 (.leaf 1013239157)
 (.leaf 1013239158))
 (.node 1 (.leaf 1013270724)
 (.leaf 1013346261)))
 (.node 2 (.node 1 (.leaf 1013396997)
 (.leaf 1013464642))
 (.node 1 (.leaf 1013468668)
 (.leaf 1013475917))))
 (.node 4 (.node 2 (.node 1 (.leaf 1013545172)
 (.leaf 1013545174))
 (.node 1 (.leaf 1013554837)
 (.leaf 1013625704)))
 (.node 2 (.node 1 (.leaf 1013667579)
 (.leaf 1013712676))
 (.node 1 (.leaf 1013712677)
 (.leaf 1013712678))))))
 (.node 16 (.node 8 (.node 4 (.node 2 (.node 1 (.leaf 1013748754)
 (.leaf 1013827031))
 (.node 1 (.leaf 1013851189)
 (.leaf 1013887429)))
 (.node 2 (.node 1 (.leaf 1013924633)
 (.leaf 1013927694))
 (.node 1 (.leaf 1013988896)
 (.leaf 1014010317))))
 (.node 4 (.node 2 (.node 1 (.leaf 1014028356)
 (.leaf 1014028358))
 (.node 1 (.leaf 1014098822)
 (.leaf 1014157205)))
 (.node 2 (.node 1 (.leaf 1014218409)
 (.leaf 1014257869))
 (.node 1 (.leaf 1014310213)
 (.leaf 1014310214)))))
 (.node 8 (.node 4 (.node 2 (.node 1 (.leaf 1014310215)
 (.leaf 1014344036))
 (.node 1 (.leaf 1014353055)
 (.leaf 1014394772)))
 (.node 2 (.node 1 (.leaf 1014422958)
 (.leaf 1014463222))
 (.node 1 (.leaf 1014479328)
 (.leaf 1014479329))))
 (.node 4 (.node 2 (.node 1 (.leaf 1014524426)
 (.leaf 1014563886))
 (.node 1 (.leaf 1014570329)
 (.leaf 1014631530)))
 (.node 2 (.node 1 (.leaf 1014648442)
 (.leaf 1014648443))
 (.node 1 (.leaf 1014659716)
 (.leaf 1014692736))))))))
 (.node 64 (.node 32 (.node 16 (.node 8 (.node 4 (.node 2 (.node 1 (.leaf 1014750877)
 (.leaf 1014769238))
 (.node 1 (.leaf 1014769239)
 (.leaf 1014817557)))
 (.node 2 (.node 1 (.leaf 1014817558)
 (.leaf 1014902115))
 (.node 1 (.leaf 1014952847)
 (.leaf 1014952848))))
 (.node 4 (.node 2 (.node 1 (.leaf 1014975397)
 (.leaf 1015028520))
 (.node 1 (.leaf 1015048411)
 (.leaf 1015048412)))
 (.node 2 (.node 1 (.leaf 1015073578)
 (.leaf 1015116863))
 (.node 1 (.leaf 1015147867)
 (.leaf 1015156322)))))
 (.node 8 (.node 4 (.node 2 (.node 1 (.leaf 1015201419)
 (.leaf 1015201420))
 (.node 1 (.leaf 1015239672)
 (.leaf 1015246517)))
 (.node 2 (.node 1 (.leaf 1015264838)
 (.leaf 1015291614))
 (.node 1 (.leaf 1015308525)
 (.leaf 1015314162))))
 (.node 4 (.node 2 (.node 1 (.leaf 1015314163)
 (.leaf 1015330269))
 (.node 1 (.leaf 1015336711)
 (.leaf 1015354427)))
 (.node 2 (.node 1 (.leaf 1015354428)
 (.leaf 1015381808))
 (.node 1 (.leaf 1015415631)
 (.leaf 1015426906))))))
 (.node 16 (.node 8 (.node 4 (.node 2 (.node 1 (.leaf 1015430932)
 (.leaf 1015466165))
 (.node 1 (.leaf 1015469184)
 (.leaf 1015472003)))
 (.node 2 (.node 1 (.leaf 1015507436)
 (.leaf 1015511463))
 (.node 1 (.leaf 1015517100)
 (.leaf 1015531595))))
 (.node 4 (.node 2 (.node 1 (.leaf 1015583940)
 (.leaf 1015617159))
 (.node 1 (.leaf 1015622192)
 (.leaf 1015629842)))
 (.node 2 (.node 1 (.leaf 1015660444)
 (.leaf 1015662458))
 (.node 1 (.leaf 1015683395)
 (.leaf 1015708763)))))
 (.node 8 (.node 4 (.node 2 (.node 1 (.leaf 1015736948)
 (.leaf 1015790500))
 (.node 1 (.leaf 1015793320)
 (.leaf 1015813452)))
 (.node 2 (.node 1 (.leaf 1015813453)
 (.leaf 1015844054))
 (.node 1 (.leaf 1015864455)
 (.leaf 1015880695))))
 (.node 4 (.node 2 (.node 1 (.leaf 1015906063)
 (.leaf 1015910089))
 (.node 1 (.leaf 1015915457)
 (.leaf 1015928611)))
 (.node 2 (.node 1 (.leaf 1015934248)
 (.leaf 1015944315))
 (.node 1 (.leaf 1015951160)
 (.leaf 1015966460)))))))
 (.node 32 (.node 16 (.node 8 (.node 4 (.node 2 (.node 1 (.leaf 1015969481)
 (.leaf 1015974514))
 (.node 1 (.leaf 1015976527)
 (.leaf 1016004713)))
 (.node 2 (.node 1 (.leaf 1016006726)
 (.leaf 1016017463))
 (.node 1 (.leaf 1016018806)
 (.leaf 1016024443))))
 (.node 4 (.node 2 (.node 1 (.leaf 1016028201)
 (.leaf 1016039904))
 (.node 1 (.leaf 1016042965)
 (.leaf 1016054038)))
 (.node 2 (.node 1 (.leaf 1016058266)
 (.leaf 1016072359))
 (.node 1 (.leaf 1016081217)
 (.leaf 1016103363)))))
 (.node 8 (.node 4 (.node 2 (.node 1 (.leaf 1016103364)
 (.leaf 1016111818))
 (.node 1 (.leaf 1016130542)
 (.leaf 1016145642)))
 (.node 2 (.node 1 (.leaf 1016195973)
 (.leaf 1016272476))
 (.node 1 (.leaf 1016272477)
 (.leaf 1016272478))))
 (.node 4 (.node 2 (.node 1 (.leaf 1016300663)
 (.leaf 1016323212))
 (.node 1 (.leaf 1016323480)
 (.leaf 1016326029)))
 (.node 2 (.node 1 (.leaf 1016349988)
 (.leaf 1016350323))
 (.node 1 (.leaf 1016374482)
 (.leaf 1016379582))))))
 (.node 16 (.node 8 (.node 4 (.node 2 (.node 1 (.leaf 1016379583)
 (.leaf 1016387233))
 (.node 1 (.leaf 1016417432)
 (.leaf 1016424680)))
 (.node 2 (.node 1 (.leaf 1016425485)
 (.leaf 1016433135))
 (.node 1 (.leaf 1016447632)
 (.leaf 1016475414))))
 (.node 4 (.node 2 (.node 1 (.leaf 1016486688)
 (.leaf 1016489910))
 (.node 1 (.leaf 1016497963)
 (.leaf 1016501990)))
 (.node 2 (.node 1 (.leaf 1016517291)
 (.leaf 1016526149))
 (.node 1 (.leaf 1016540241)
 (.leaf 1016547892)))))
 (.node 8 (.node 4 (.node 2 (.node 1 (.leaf 1016547893)
 (.leaf 1016548295))
 (.node 1 (.leaf 1016576883)
 (.leaf 1016576884)))
 (.node 2 (.node 1 (.leaf 1016578493)
 (.leaf 1016578494))
 (.node 1 (.leaf 1016593794)
 (.leaf 1016630839))))
 (.node 4 (.node 2 (.node 1 (.leaf 1016643925)
 (.leaf 1016647347))
 (.node 1 (.leaf 1016674123)
 (.leaf 1016680499)))
 (.node 2 (.node 1 (.leaf 1016689224)
 (.leaf 1016695263))
 (.node 1 (.leaf 1016700899)
 (.leaf 1016700900))))))))))
 (.node 256 (.node 128 (.node 64 (.node 32 (.node 16 (.node 8 (.node 4 (.node 2 (.node 1 (.leaf 1016703156)
 (.leaf 1016731502))
 (.node 1 (.leaf 1016746601)
 (.leaf 1016761702)))
 (.node 2 (.node 1 (.leaf 1016769754)
 (.leaf 1016808005))
 (.node 1 (.leaf 1016808007)
 (.leaf 1016833507))))
 (.node 4 (.node 2 (.node 1 (.leaf 1016840218)
 (.leaf 1016850285))
 (.node 1 (.leaf 1016861558)
 (.leaf 1016875451)))
 (.node 2 (.node 1 (.leaf 1016892563)
 (.leaf 1016892564))
 (.node 1 (.leaf 1016915111)
 (.leaf 1016915112)))))
 (.node 8 (.node 4 (.node 2 (.node 1 (.leaf 1016944908)
 (.leaf 1016961014))
 (.node 1 (.leaf 1016968664)
 (.leaf 1016972234)))
 (.node 2 (.node 1 (.leaf 1017022217)
 (.leaf 1017022218))
 (.node 1 (.leaf 1017037518)
 (.leaf 1017061678))))
 (.node 4 (.node 2 (.node 1 (.leaf 1017075770)
 (.leaf 1017075772))
 (.node 1 (.leaf 1017089863)
 (.leaf 1017089864)))
 (.node 2 (.node 1 (.leaf 1017129323)
 (.leaf 1017129324))
 (.node 1 (.leaf 1017142208)
 (.leaf 1017152274))))))
 (.node 16 (.node 8 (.node 4 (.node 2 (.node 1 (.leaf 1017178447)
 (.leaf 1017182876))
 (.node 1 (.leaf 1017182877)
 (.leaf 1017190526)))
 (.node 2 (.node 1 (.leaf 1017230791)
 (.leaf 1017232806))
 (.node 1 (.leaf 1017239811)
 (.leaf 1017246092))))
 (.node 4 (.node 2 (.node 1 (.leaf 1017263004)
 (.leaf 1017287163))
 (.node 1 (.leaf 1017287164)
 (.leaf 1017289981)))
 (.node 2 (.node 1 (.leaf 1017329442)
 (.leaf 1017343534))
 (.node 1 (.leaf 1017343535)
 (.leaf 1017373733)))))
 (.node 8 (.node 4 (.node 2 (.node 1 (.leaf 1017420038)
 (.leaf 1017429099))
 (.node 1 (.leaf 1017456278)
 (.leaf 1017484463)))
 (.node 2 (.node 1 (.leaf 1017484464)
 (.leaf 1017504596))
 (.node 1 (.leaf 1017512649)
 (.leaf 1017534794))))
 (.node 4 (.node 2 (.node 1 (.leaf 1017539385)
 (.leaf 1017539828))
 (.node 1 (.leaf 1017557745)
 (.leaf 1017569021)))
 (.node 2 (.node 1 (.leaf 1017573047)
 (.leaf 1017611299))
 (.node 1 (.leaf 1017625393)
 (.leaf 1017649551)))))))
 (.node 32 (.node 16 (.node 8 (.node 4 (.node 2 (.node 1 (.leaf 1017649552)
 (.leaf 1017653577))
 (.node 1 (.leaf 1017669080)
 (.leaf 1017681763)))
 (.node 2 (.node 1 (.leaf 1017681764)
 (.leaf 1017706929))
 (.node 1 (.leaf 1017707533)
 (.leaf 1017726055))))
 (.node 4 (.node 2 (.node 1 (.leaf 1017731089)
 (.leaf 1017771957))
 (.node 1 (.leaf 1017784641)
 (.leaf 1017794507)))
 (.node 2 (.node 1 (.leaf 1017842422)
 (.leaf 1017879063))
 (.node 1 (.leaf 1017879064)
 (.leaf 1017893156)))))
 (.node 8 (.node 4 (.node 2 (.node 1 (.leaf 1017900203)
 (.leaf 1017907248))
 (.node 1 (.leaf 1017917315)
 (.leaf 1017938253)))
 (.node 2 (.node 1 (.leaf 1017957984)
 (.leaf 1017965969))
 (.node 1 (.leaf 1017977713)
 (.leaf 1017986169))))
 (.node 4 (.node 2 (.node 1 (.leaf 1018015765)
 (.leaf 1018017979))
 (.node 1 (.leaf 1018036098)
 (.leaf 1018048178)))
 (.node 2 (.node 1 (.leaf 1018076363)
 (.leaf 1018076364))
 (.node 1 (.leaf 1018077975)
 (.leaf 1018083410))))))
 (.node 16 (.node 8 (.node 4 (.node 2 (.node 1 (.leaf 1018108575)
 (.leaf 1018108576))
 (.node 1 (.leaf 1018108577)
 (.leaf 1018132734)))
 (.node 2 (.node 1 (.leaf 1018132735)
 (.leaf 1018134749))
 (.node 1 (.leaf 1018146828)
 (.leaf 1018172329))))
 (.node 4 (.node 2 (.node 1 (.leaf 1018175014)
 (.leaf 1018200380))
 (.node 1 (.leaf 1018200851)
 (.leaf 1018214273)))
 (.node 2 (.node 1 (.leaf 1018224338)
 (.leaf 1018234204))
 (.node 1 (.leaf 1018236082)
 (.leaf 1018259570)))))
 (.node 8 (.node 4 (.node 2 (.node 1 (.leaf 1018259571)
 (.leaf 1018261585))
 (.node 1 (.leaf 1018273663)
 (.leaf 1018273664)))
 (.node 2 (.node 1 (.leaf 1018293394)
 (.leaf 1018299836))
 (.node 1 (.leaf 1018301849)
 (.leaf 1018318291))))
 (.node 4 (.node 2 (.node 1 (.leaf 1018328626)
 (.leaf 1018333055))
 (.node 1 (.leaf 1018338087)
 (.leaf 1018338088)))
 (.node 2 (.node 1 (.leaf 1018350168)
 (.leaf 1018358220))
 (.node 1 (.leaf 1018361240)
 (.leaf 1018363589))))))))
 (.node 64 (.node 32 (.node 16 (.node 8 (.node 4 (.node 2 (.node 1 (.leaf 1018365267)
 (.leaf 1018372313))
 (.node 1 (.leaf 1018410566)
 (.leaf 1018414591)))
 (.node 2 (.node 1 (.leaf 1018414592)
 (.leaf 1018427342))
 (.node 1 (.leaf 1018470963)
 (.leaf 1018470964))))
 (.node 4 (.node 2 (.node 1 (.leaf 1018476601)
 (.leaf 1018491096))
 (.node 1 (.leaf 1018492102)
 (.leaf 1018506398)))
 (.node 2 (.node 1 (.leaf 1018510425)
 (.leaf 1018531362))
 (.node 1 (.leaf 1018534099)
 (.leaf 1018536730)))))
 (.node 8 (.node 4 (.node 2 (.node 1 (.leaf 1018538610)
 (.leaf 1018545454))
 (.node 1 (.leaf 1018554850)
 (.leaf 1018555520)))
 (.node 2 (.node 1 (.leaf 1018567600)
 (.leaf 1018571024))
 (.node 1 (.leaf 1018584512)
 (.leaf 1018600618))))
 (.node 4 (.node 2 (.node 1 (.leaf 1018602496)
 (.leaf 1018602497))
 (.node 1 (.leaf 1018606859)
 (.leaf 1018611892)))
 (.node 2 (.node 1 (.leaf 1018613569)
 (.leaf 1018618603))
 (.node 1 (.leaf 1018625985)
 (.leaf 1018628803))))))
 (.node 16 (.node 8 (.node 4 (.node 2 (.node 1 (.leaf 1018628804)
 (.leaf 1018662627))
 (.node 1 (.leaf 1018663566)
 (.leaf 1018668263)))
 (.node 2 (.node 1 (.leaf 1018668264)
 (.leaf 1018672290))
 (.node 1 (.leaf 1018675645)
 (.leaf 1018682356))))
 (.node 4 (.node 2 (.node 1 (.leaf 1018682357)
 (.leaf 1018717589))
 (.node 1 (.leaf 1018724634)
 (.leaf 1018724636)))
 (.node 2 (.node 1 (.leaf 1018728259)
 (.leaf 1018729668))
 (.node 1 (.leaf 1018734030)
 (.leaf 1018737721)))))
 (.node 8 (.node 4 (.node 2 (.node 1 (.leaf 1018745774)
 (.leaf 1018746110))
 (.node 1 (.leaf 1018751211)
 (.leaf 1018786644)))
 (.node 2 (.node 1 (.leaf 1018795770)
 (.leaf 1018797113))
 (.node 1 (.leaf 1018799797)
 (.leaf 1018799798))))
 (.node 4 (.node 2 (.node 1 (.leaf 1018803153)
 (.leaf 1018805837))
 (.node 1 (.leaf 1018809192)
 (.leaf 1018809863)))
 (.node 2 (.node 1 (.leaf 1018843014)
 (.leaf 1018851470))
 (.node 1 (.leaf 1018861872)
 (.leaf 1018865564)))))))
 (.node 32 (.node 16 (.node 8 (.node 4 (.node 2 (.node 1 (.leaf 1018868584)
 (.leaf 1018870932))
 (.node 1 (.leaf 1018872610)
 (.leaf 1018873617)))
 (.node 2 (.node 1 (.leaf 1018886703)
 (.leaf 1018927975))
 (.node 1 (.leaf 1018931331)
 (.leaf 1018934015))))
 (.node 4 (.node 2 (.node 1 (.leaf 1018936028)
 (.leaf 1018937370))
 (.node 1 (.leaf 1018950121)
 (.leaf 1018954147)))
 (.node 2 (.node 1 (.leaf 1018964214)
 (.leaf 1018988374))
 (.node 1 (.leaf 1018994078)
 (.leaf 1018997097)))))
 (.node 8 (.node 4 (.node 2 (.node 1 (.leaf 1018999446)
 (.leaf 1019001123))
 (.node 1 (.leaf 1019014948)
 (.leaf 1019026626)))
 (.node 2 (.node 1 (.leaf 1019057226)
 (.leaf 1019060180))
 (.node 1 (.leaf 1019062864)
 (.leaf 1019064877))))
 (.node 4 (.node 2 (.node 1 (.leaf 1019079775)
 (.leaf 1019091049))
 (.node 1 (.leaf 1019126282)
 (.leaf 1019128630)))
 (.node 2 (.node 1 (.leaf 1019128631)
 (.leaf 1019144602))
 (.node 1 (.leaf 1019147422)
 (.leaf 1019179633))))))
 (.node 16 (.node 8 (.node 4 (.node 2 (.node 1 (.leaf 1019182318)
 (.leaf 1019183459))
 (.node 1 (.leaf 1019192384)
 (.leaf 1019194397)))
 (.node 2 (.node 1 (.leaf 1019210839)
 (.leaf 1019217885))
 (.node 1 (.leaf 1019250956)
 (.leaf 1019256137))))
 (.node 4 (.node 2 (.node 1 (.leaf 1019256138)
 (.leaf 1019258486))
 (.node 1 (.leaf 1019260163)
 (.leaf 1019260164)))
 (.node 2 (.node 1 (.leaf 1019261171)
 (.leaf 1019271437))
 (.node 1 (.leaf 1019274257)
 (.leaf 1019284121)))))
 (.node 8 (.node 4 (.node 2 (.node 1 (.leaf 1019316535)
 (.leaf 1019316536))
 (.node 1 (.leaf 1019319891)
 (.leaf 1019324588)))
 (.node 2 (.node 1 (.leaf 1019325931)
 (.leaf 1019326602))
 (.node 1 (.leaf 1019330628)
 (.leaf 1019339084))))
 (.node 4 (.node 2 (.node 1 (.leaf 1019350358)
 (.leaf 1019383644))
 (.node 1 (.leaf 1019390691)
 (.leaf 1019391697)))
 (.node 2 (.node 1 (.leaf 1019396395)
 (.leaf 1019403911))
 (.node 1 (.leaf 1019408139)
 (.leaf 1019422231)))))))))
 (.node 128 (.node 64 (.node 32 (.node 16 (.node 8 (.node 4 (.node 2 (.node 1 (.leaf 1019450753)
 (.leaf 1019456793))
 (.node 1 (.leaf 1019457463)
 (.leaf 1019457465)))
 (.node 2 (.node 1 (.leaf 1019485648)
 (.leaf 1019485649))
 (.node 1 (.leaf 1019485650)
 (.leaf 1019517862))))
 (.node 4 (.node 2 (.node 1 (.leaf 1019521888)
 (.leaf 1019522896))
 (.node 1 (.leaf 1019523231)
 (.leaf 1019549067)))
 (.node 2 (.node 1 (.leaf 1019553296)
 (.leaf 1019557052))
 (.node 1 (.leaf 1019560061)
 (.leaf 1019570206)))))
 (.node 8 (.node 4 (.node 2 (.node 1 (.leaf 1019584971)
 (.leaf 1019586984))
 (.node 1 (.leaf 1019588327)
 (.leaf 1019588998)))
 (.node 2 (.node 1 (.leaf 1019615304)
 (.leaf 1019628456))
 (.node 1 (.leaf 1019638658)
 (.leaf 1019638659))))
 (.node 4 (.node 2 (.node 1 (.leaf 1019643019)
 (.leaf 1019653959))
 (.node 1 (.leaf 1019654763)
 (.leaf 1019654765)))
 (.node 2 (.node 1 (.leaf 1019655100)
 (.leaf 1019668857))
 (.node 1 (.leaf 1019688587)
 (.leaf 1019699860))))))
 (.node 16 (.node 8 (.node 4 (.node 2 (.node 1 (.leaf 1019704089)
 (.leaf 1019711135))
 (.node 1 (.leaf 1019719189)
 (.leaf 1019720531)))
 (.node 2 (.node 1 (.leaf 1019721202)
 (.leaf 1019753414))
 (.node 1 (.leaf 1019756232)
 (.leaf 1019756233))))
 (.node 4 (.node 2 (.node 1 (.leaf 1019776769)
 (.leaf 1019786298))
 (.node 1 (.leaf 1019787304)
 (.leaf 1019791666)))
 (.node 2 (.node 1 (.leaf 1019806966)
 (.leaf 1019809785))
 (.node 1 (.leaf 1019822469)
 (.leaf 1019823877)))))
 (.node 8 (.node 4 (.node 2 (.node 1 (.leaf 1019823879)
 (.leaf 1019842667))
 (.node 1 (.leaf 1019853407)
 (.leaf 1019887295)))
 (.node 2 (.node 1 (.leaf 1019891524)
 (.leaf 1019891525))
 (.node 1 (.leaf 1019914072)
 (.leaf 1019920515))))
 (.node 4 (.node 2 (.node 1 (.leaf 1019929575)
 (.leaf 1019936620))
 (.node 1 (.leaf 1019944675)
 (.leaf 1019950714)))
 (.node 2 (.node 1 (.leaf 1019959170)
 (.leaf 1019985476))
 (.node 1 (.leaf 1019999758)
 (.leaf 1020021178)))))))
 (.node 32 (.node 16 (.node 8 (.node 4 (.node 2 (.node 1 (.leaf 1020041312)
 (.leaf 1020054733))
 (.node 1 (.leaf 1020056880)
 (.leaf 1020077550)))
 (.node 2 (.node 1 (.leaf 1020097683)
 (.leaf 1020128283))
 (.node 1 (.leaf 1020128284)
 (.leaf 1020151235))))
 (.node 4 (.node 2 (.node 1 (.leaf 1020162107)
 (.leaf 1020167745))
 (.node 1 (.leaf 1020187943)
 (.leaf 1020190292)))
 (.node 2 (.node 1 (.leaf 1020197339)
 (.leaf 1020199687))
 (.node 1 (.leaf 1020232571)
 (.leaf 1020256059)))))
 (.node 8 (.node 4 (.node 2 (.node 1 (.leaf 1020271091)
 (.leaf 1020288941))
 (.node 1 (.leaf 1020288942)
 (.leaf 1020295572)))
 (.node 2 (.node 1 (.leaf 1020296593)
 (.leaf 1020331221))
 (.node 1 (.leaf 1020342495)
 (.leaf 1020369271))))
 (.node 4 (.node 2 (.node 1 (.leaf 1020403698)
 (.leaf 1020403699))
 (.node 1 (.leaf 1020403700)
 (.leaf 1020413898)))
 (.node 2 (.node 1 (.leaf 1020443964)
 (.leaf 1020451011))
 (.node 1 (.leaf 1020485302)
 (.leaf 1020504563))))))
 (.node 16 (.node 8 (.node 4 (.node 2 (.node 1 (.leaf 1020514429)
 (.leaf 1020518455))
 (.node 1 (.leaf 1020528521)
 (.leaf 1020556706)))
 (.node 2 (.node 1 (.leaf 1020556707)
 (.leaf 1020556708))
 (.node 1 (.leaf 1020584892)
 (.leaf 1020629989))))
 (.node 4 (.node 2 (.node 1 (.leaf 1020633211)
 (.leaf 1020648311))
 (.node 1 (.leaf 1020690589)
 (.leaf 1020693610)))
 (.node 2 (.node 1 (.leaf 1020711729)
 (.leaf 1020720184))
 (.node 1 (.leaf 1020732667)
 (.leaf 1020739914)))))
 (.node 8 (.node 4 (.node 2 (.node 1 (.leaf 1020766088)
 (.leaf 1020768099))
 (.node 1 (.leaf 1020770918)
 (.leaf 1020770919)))
 (.node 2 (.node 1 (.leaf 1020776555)
 (.leaf 1020792058))
 (.node 1 (.leaf 1020824472)
 (.leaf 1020849839))))
 (.node 4 (.node 2 (.node 1 (.leaf 1020862724)
 (.leaf 1020878025))
 (.node 1 (.leaf 1020913726)
 (.leaf 1020923121)))
 (.node 2 (.node 1 (.leaf 1020937214)
 (.leaf 1020972446))
 (.node 1 (.leaf 1020996404)
 (.leaf 1021023382))))))))
 (.node 64 (.node 32 (.node 16 (.node 8 (.node 4 (.node 2 (.node 1 (.leaf 1021048548)
 (.leaf 1021053984))
 (.node 1 (.leaf 1021092236)
 (.leaf 1021154244)))
 (.node 2 (.node 1 (.leaf 1021168740)
 (.leaf 1021168741))
 (.node 1 (.leaf 1021183839)
 (.leaf 1021195583))))
 (.node 4 (.node 2 (.node 1 (.leaf 1021197933)
 (.leaf 1021199341))
 (.node 1 (.leaf 1021199342)
 (.leaf 1021228332)))
 (.node 2 (.node 1 (.leaf 1021233164)
 (.leaf 1021233165))
 (.node 1 (.leaf 1021244438)
 (.leaf 1021272625)))))
 (.node 8 (.node 4 (.node 2 (.node 1 (.leaf 1021289535)
 (.leaf 1021321748))
 (.node 1 (.leaf 1021345907)
 (.leaf 1021347317)))
 (.node 2 (.node 1 (.leaf 1021360000)
 (.leaf 1021396641))
 (.node 1 (.leaf 1021430464)
 (.leaf 1021430465))))
 (.node 4 (.node 2 (.node 1 (.leaf 1021437510)
 (.leaf 1021469926))
 (.node 1 (.leaf 1021472743)
 (.leaf 1021480595)))
 (.node 2 (.node 1 (.leaf 1021512672)
 (.leaf 1021514419))
 (.node 1 (.leaf 1021515021)
 (.leaf 1021531129))))))
 (.node 16 (.node 8 (.node 4 (.node 2 (.node 1 (.leaf 1021548845)
 (.leaf 1021551260))
 (.node 1 (.leaf 1021551261)
 (.leaf 1021551262)))
 (.node 2 (.node 1 (.leaf 1021590183)
 (.leaf 1021592532))
 (.node 1 (.leaf 1021594881)
 (.leaf 1021599578))))
 (.node 4 (.node 2 (.node 1 (.leaf 1021627764)
 (.leaf 1021627765))
 (.node 1 (.leaf 1021627766)
 (.leaf 1021670042)))
 (.node 2 (.node 1 (.leaf 1021704268)
 (.leaf 1021747554))
 (.node 1 (.leaf 1021754601)
 (.leaf 1021759297)))))
 (.node 8 (.node 4 (.node 2 (.node 1 (.leaf 1021780772)
 (.leaf 1021780773))
 (.node 1 (.leaf 1021780774)
 (.leaf 1021785604)))
 (.node 2 (.node 1 (.leaf 1021825065)
 (.leaf 1021841505))
 (.node 1 (.leaf 1021853250)
 (.leaf 1021864524))))
 (.node 4 (.node 2 (.node 1 (.leaf 1021895528)
 (.leaf 1021895529))
 (.node 1 (.leaf 1021902575)
 (.leaf 1021933780)))
 (.node 2 (.node 1 (.leaf 1021933782)
 (.leaf 1021937807))
 (.node 1 (.leaf 1021949081)
 (.leaf 1021965992)))))))
 (.node 32 (.node 16 (.node 8 (.node 4 (.node 2 (.node 1 (.leaf 1021975857)
 (.leaf 1021980086))
 (.node 1 (.leaf 1022002635)
 (.leaf 1022005923)))
 (.node 2 (.node 1 (.leaf 1022010285)
 (.leaf 1022015318))
 (.node 1 (.leaf 1022022364)
 (.leaf 1022022365))))
 (.node 4 (.node 2 (.node 1 (.leaf 1022028907)
 (.leaf 1022056186))
 (.node 1 (.leaf 1022056187)
 (.leaf 1022057597)))
 (.node 2 (.node 1 (.leaf 1022099673)
 (.leaf 1022100882))
 (.node 1 (.leaf 1022101285)
 (.leaf 1022106921)))))
 (.node 8 (.node 4 (.node 2 (.node 1 (.leaf 1022125042)
 (.leaf 1022136516))
 (.node 1 (.leaf 1022163293)
 (.leaf 1022170340)))
 (.node 2 (.node 1 (.leaf 1022201545)
 (.leaf 1022215639))
 (.node 1 (.leaf 1022239797)
 (.leaf 1022252548))))
 (.node 4 (.node 2 (.node 1 (.leaf 1022255904)
 (.leaf 1022276036))
 (.node 1 (.leaf 1022297175)
 (.leaf 1022316302)))
 (.node 2 (.node 1 (.leaf 1022326770)
 (.leaf 1022362942))
 (.node 1 (.leaf 1022377504)
 (.leaf 1022408509))))))
 (.node 16 (.node 8 (.node 4 (.node 2 (.node 1 (.leaf 1022431057)
 (.leaf 1022443809))
 (.node 1 (.leaf 1022449848)
 (.leaf 1022457834)))
 (.node 2 (.node 1 (.leaf 1022486220)
 (.leaf 1022497497))
 (.node 1 (.leaf 1022499173)
 (.leaf 1022514205))))
 (.node 4 (.node 2 (.node 1 (.leaf 1022543237)
 (.leaf 1022545814))
 (.node 1 (.leaf 1022568363)
 (.leaf 1022571987)))
 (.node 2 (.node 1 (.leaf 1022597353)
 (.leaf 1022622318))
 (.node 1 (.leaf 1022622319)
 (.leaf 1022653725)))))
 (.node 8 (.node 4 (.node 2 (.node 1 (.leaf 1022680501)
 (.leaf 1022698821))
 (.node 1 (.leaf 1022698822)
 (.leaf 1022698823)))
 (.node 2 (.node 1 (.leaf 1022710565)
 (.leaf 1022729022))
 (.node 1 (.leaf 1022752376)
 (.leaf 1022763648))))
 (.node 4 (.node 2 (.node 1 (.leaf 1022783378)
 (.leaf 1022788076))
 (.node 1 (.leaf 1022797069)
 (.leaf 1022817202)))
 (.node 2 (.node 1 (.leaf 1022825053)
 (.leaf 1022828007))
 (.node 1 (.leaf 1022839751)
 (.leaf 1022846797)))))))))))
 (.node 512 (.node 256 (.node 128 (.node 64 (.node 32 (.node 16 (.node 8 (.node 4 (.node 2 (.node 1 (.leaf 1022851830)
 (.leaf 1022877331))
 (.node 1 (.leaf 1022894110)
 (.leaf 1022929945)))
 (.node 2 (.node 1 (.leaf 1022940414)
 (.leaf 1022952493))
 (.node 1 (.leaf 1022966585)
 (.leaf 1022980679))))
 (.node 4 (.node 2 (.node 1 (.leaf 1023020140)
 (.leaf 1023037050))
 (.node 1 (.leaf 1023043157)
 (.leaf 1023048324)))
 (.node 2 (.node 1 (.leaf 1023052552)
 (.leaf 1023055840))
 (.node 1 (.leaf 1023081344)
 (.leaf 1023121608)))))
 (.node 8 (.node 4 (.node 2 (.node 1 (.leaf 1023125969)
 (.leaf 1023127245))
 (.node 1 (.leaf 1023133821)
 (.leaf 1023138518)))
 (.node 2 (.node 1 (.leaf 1023142276)
 (.leaf 1023145095))
 (.node 1 (.leaf 1023157846)
 (.leaf 1023157847))))
 (.node 4 (.node 2 (.node 1 (.leaf 1023157848)
 (.leaf 1023167914))
 (.node 1 (.leaf 1023192072)
 (.leaf 1023206165)))
 (.node 2 (.node 1 (.leaf 1023213211)
 (.leaf 1023214057))
 (.node 1 (.leaf 1023224485)
 (.leaf 1023232001))))))
 (.node 16 (.node 8 (.node 4 (.node 2 (.node 1 (.leaf 1023234351)
 (.leaf 1023244819))
 (.node 1 (.leaf 1023261410)
 (.leaf 1023262536)))
 (.node 2 (.node 1 (.leaf 1023290722)
 (.leaf 1023298238))
 (.node 1 (.leaf 1023304815)
 (.leaf 1023315149))))
 (.node 4 (.node 2 (.node 1 (.leaf 1023321726)
 (.leaf 1023323605))
 (.node 1 (.leaf 1023341455)
 (.leaf 1023375279)))
 (.node 2 (.node 1 (.leaf 1023383265)
 (.leaf 1023390311))
 (.node 1 (.leaf 1023393400)
 (.leaf 1023396418)))))
 (.node 8 (.node 4 (.node 2 (.node 1 (.leaf 1023405813)
 (.leaf 1023410813))
 (.node 1 (.leaf 1023411518)
 (.leaf 1023418901)))
 (.node 2 (.node 1 (.leaf 1023437020)
 (.leaf 1023439234))
 (.node 1 (.leaf 1023442992)
 (.leaf 1023446280))))
 (.node 4 (.node 2 (.node 1 (.leaf 1023449099)
 (.leaf 1023454736))
 (.node 1 (.leaf 1023455676)
 (.leaf 1023456145)))
 (.node 2 (.node 1 (.leaf 1023456146)
 (.leaf 1023477285))
 (.node 1 (.leaf 1023481312)
 (.leaf 1023489264)))))))
 (.node 32 (.node 16 (.node 8 (.node 4 (.node 2 (.node 1 (.leaf 1023492317)
 (.leaf 1023494901))
 (.node 1 (.leaf 1023498659)
 (.leaf 1023499833)))
 (.node 2 (.node 1 (.leaf 1023500773)
 (.leaf 1023524261))
 (.node 1 (.leaf 1023528926)
 (.leaf 1023535535))))
 (.node 4 (.node 2 (.node 1 (.leaf 1023537683)
 (.leaf 1023538354))
 (.node 1 (.leaf 1023540703)
 (.leaf 1023542582)))
 (.node 2 (.node 1 (.leaf 1023543991)
 (.leaf 1023545400))
 (.node 1 (.leaf 1023548757)
 (.leaf 1023559426)))))
 (.node 8 (.node 4 (.node 2 (.node 1 (.leaf 1023569895)
 (.leaf 1023571237))
 (.node 1 (.leaf 1023581807)
 (.leaf 1023584391)))
 (.node 2 (.node 1 (.leaf 1023586505)
 (.leaf 1023588015))
 (.node 1 (.leaf 1023590027)
 (.leaf 1023590028))))
 (.node 4 (.node 2 (.node 1 (.leaf 1023618213)
 (.leaf 1023621971))
 (.node 1 (.leaf 1023628079)
 (.leaf 1023628280)))
 (.node 2 (.node 1 (.leaf 1023630427)
 (.leaf 1023632307))
 (.node 1 (.leaf 1023634655)
 (.leaf 1023647406))))))
 (.node 16 (.node 8 (.node 4 (.node 2 (.node 1 (.leaf 1023653244)
 (.leaf 1023658478))
 (.node 1 (.leaf 1023665189)
 (.leaf 1023668713)))
 (.node 2 (.node 1 (.leaf 1023673578)
 (.leaf 1023674350))
 (.node 1 (.leaf 1023676464)
 (.leaf 1023678108))))
 (.node 4 (.node 2 (.node 1 (.leaf 1023679282)
 (.leaf 1023702771))
 (.node 1 (.leaf 1023712165)
 (.leaf 1023718877)))
 (.node 2 (.node 1 (.leaf 1023720622)
 (.leaf 1023722501))
 (.node 1 (.leaf 1023723910)
 (.leaf 1023724548)))))
 (.node 8 (.node 4 (.node 2 (.node 1 (.leaf 1023725319)
 (.leaf 1023743036))
 (.node 1 (.leaf 1023764779)
 (.leaf 1023766893)))
 (.node 2 (.node 1 (.leaf 1023768537)
 (.leaf 1023790691))
 (.node 1 (.leaf 1023791488)
 (.leaf 1023804239))))
 (.node 4 (.node 2 (.node 1 (.leaf 1023806118)
 (.leaf 1023808937))
 (.node 1 (.leaf 1023813165)
 (.leaf 1023814574)))
 (.node 2 (.node 1 (.leaf 1023815514)
 (.leaf 1023819540))
 (.node 1 (.leaf 1023824573)
 (.leaf 1023829607))))))))
 (.node 64 (.node 32 (.node 16 (.node 8 (.node 4 (.node 2 (.node 1 (.leaf 1023839941)
 (.leaf 1023857792))
 (.node 1 (.leaf 1023857793)
 (.leaf 1023859436)))
 (.node 2 (.node 1 (.leaf 1023860611)
 (.leaf 1023861315))
 (.node 1 (.leaf 1023861550)
 (.leaf 1023879939))))
 (.node 4 (.node 2 (.node 1 (.leaf 1023896044)
 (.leaf 1023900071))
 (.node 1 (.leaf 1023902419)
 (.leaf 1023904298)))
 (.node 2 (.node 1 (.leaf 1023905708)
 (.leaf 1023906647))
 (.node 1 (.leaf 1023906882)
 (.leaf 1023907117)))))
 (.node 8 (.node 4 (.node 2 (.node 1 (.leaf 1023920203)
 (.leaf 1023926646))
 (.node 1 (.leaf 1023945370)
 (.leaf 1023947047)))
 (.node 2 (.node 1 (.leaf 1023951979)
 (.leaf 1023952684))
 (.node 1 (.leaf 1023972548)
 (.leaf 1023985232))))
 (.node 4 (.node 2 (.node 1 (.leaf 1023998251)
 (.leaf 1023998721))
 (.node 1 (.leaf 1024004760)
 (.leaf 1024005767)))
 (.node 2 (.node 1 (.leaf 1024010800)
 (.leaf 1024018451))
 (.node 1 (.leaf 1024035362)
 (.leaf 1024044523))))))
 (.node 16 (.node 8 (.node 4 (.node 2 (.node 1 (.leaf 1024044758)
 (.leaf 1024049052))
 (.node 1 (.leaf 1024058112)
 (.leaf 1024071198)))
 (.node 2 (.node 1 (.leaf 1024087975)
 (.leaf 1024090794))
 (.node 1 (.leaf 1024125556)
 (.leaf 1024136831))))
 (.node 4 (.node 2 (.node 1 (.leaf 1024137066)
 (.leaf 1024146696))
 (.node 1 (.leaf 1024179109)
 (.leaf 1024181928)))
 (.node 2 (.node 1 (.leaf 1024182868)
 (.leaf 1024183337))
 (.node 1 (.leaf 1024190585)
 (.leaf 1024202061)))))
 (.node 8 (.node 4 (.node 2 (.node 1 (.leaf 1024228904)
 (.leaf 1024229609))
 (.node 1 (.leaf 1024232662)
 (.leaf 1024250379)))
 (.node 2 (.node 1 (.leaf 1024253063)
 (.leaf 1024262458))
 (.node 1 (.leaf 1024275880)
 (.leaf 1024278565))))
 (.node 4 (.node 2 (.node 1 (.leaf 1024294671)
 (.leaf 1024298698))
 (.node 1 (.leaf 1024302563)
 (.leaf 1024317219)))
 (.node 2 (.node 1 (.leaf 1024323701)
 (.leaf 1024341983))
 (.node 1 (.leaf 1024347016)
 (.leaf 1024358089)))))))
 (.node 32 (.node 16 (.node 8 (.node 4 (.node 2 (.node 1 (.leaf 1024365135)
 (.leaf 1024393321))
 (.node 1 (.leaf 1024395334)
 (.leaf 1024420098)))
 (.node 2 (.node 1 (.leaf 1024431573)
 (.leaf 1024446873))
 (.node 1 (.leaf 1024446874)
 (.leaf 1024469825))))
 (.node 4 (.node 2 (.node 1 (.leaf 1024483918)
 (.leaf 1024488951))
 (.node 1 (.leaf 1024491971)
 (.leaf 1024491972)))
 (.node 2 (.node 1 (.leaf 1024519150)
 (.leaf 1024534250))
 (.node 1 (.leaf 1024584581)
 (.leaf 1024599579)))))
 (.node 8 (.node 4 (.node 2 (.node 1 (.leaf 1024613270)
 (.leaf 1024643301))
 (.node 1 (.leaf 1024661085)
 (.leaf 1024661086)))
 (.node 2 (.node 1 (.leaf 1024685245)
 (.leaf 1024705377))
 (.node 1 (.leaf 1024710410)
 (.leaf 1024718463))))
 (.node 4 (.node 2 (.node 1 (.leaf 1024735576)
 (.leaf 1024738596))
 (.node 1 (.leaf 1024738931)
 (.leaf 1024761480)))
 (.node 2 (.node 1 (.leaf 1024763090)
 (.leaf 1024775841))
 (.node 1 (.leaf 1024775842)
 (.leaf 1024785908))))))
 (.node 16 (.node 8 (.node 4 (.node 2 (.node 1 (.leaf 1024806040)
 (.leaf 1024806041))
 (.node 1 (.leaf 1024830032)
 (.leaf 1024864022)))
 (.node 2 (.node 1 (.leaf 1024878518)
 (.leaf 1024886571))
 (.node 1 (.leaf 1024891605)
 (.leaf 1024903080))))
 (.node 4 (.node 2 (.node 1 (.leaf 1024909723)
 (.leaf 1024928849))
 (.node 1 (.leaf 1024929856)
 (.leaf 1024936903)))
 (.node 2 (.node 1 (.leaf 1024965492)
 (.leaf 1024967101))
 (.node 1 (.leaf 1024967102)
 (.leaf 1024981194)))))
 (.node 8 (.node 4 (.node 2 (.node 1 (.leaf 1024987234)
 (.leaf 1025007367))
 (.node 1 (.leaf 1025009884)
 (.leaf 1025019446)))
 (.node 2 (.node 1 (.leaf 1025035955)
 (.leaf 1025042599))
 (.node 1 (.leaf 1025058081)
 (.leaf 1025061054))))
 (.node 4 (.node 2 (.node 1 (.leaf 1025062731)
 (.leaf 1025062732))
 (.node 1 (.leaf 1025071792)
 (.leaf 1025077832)))
 (.node 2 (.node 1 (.leaf 1025087898)
 (.leaf 1025089507))
 (.node 1 (.leaf 1025118096)
 (.leaf 1025120110)))))))))
 (.node 128 (.node 64 (.node 32 (.node 16 (.node 8 (.node 4 (.node 2 (.node 1 (.leaf 1025124136)
 (.leaf 1025135209))
 (.node 1 (.leaf 1025152322)
 (.leaf 1025158362)))
 (.node 2 (.node 1 (.leaf 1025168428)
 (.leaf 1025176481))
 (.node 1 (.leaf 1025182802)
 (.leaf 1025196614))))
 (.node 4 (.node 2 (.node 1 (.leaf 1025196615)
 (.leaf 1025208693))
 (.node 1 (.leaf 1025215538)
 (.leaf 1025215740)))
 (.node 2 (.node 1 (.leaf 1025227752)
 (.leaf 1025238893))
 (.node 1 (.leaf 1025264059)
 (.leaf 1025265065)))))
 (.node 8 (.node 4 (.node 2 (.node 1 (.leaf 1025281171)
 (.leaf 1025317746))
 (.node 1 (.leaf 1025332711)
 (.leaf 1025333516)))
 (.node 2 (.node 1 (.leaf 1025349622)
 (.leaf 1025349623))
 (.node 1 (.leaf 1025371768)
 (.leaf 1025386398))))
 (.node 4 (.node 2 (.node 1 (.leaf 1025400624)
 (.leaf 1025403309))
 (.node 1 (.leaf 1025403980)
 (.leaf 1025410825)))
 (.node 2 (.node 1 (.leaf 1025415053)
 (.leaf 1025426127))
 (.node 1 (.leaf 1025430153)
 (.leaf 1025439280))))))
 (.node 16 (.node 8 (.node 4 (.node 2 (.node 1 (.leaf 1025450285)
 (.leaf 1025458338))
 (.node 1 (.leaf 1025464378)
 (.leaf 1025464379)))
 (.node 2 (.node 1 (.leaf 1025478472)
 (.leaf 1025512697))
 (.node 1 (.leaf 1025517931)
 (.leaf 1025530816))))
 (.node 4 (.node 2 (.node 1 (.leaf 1025531823)
 (.leaf 1025540882))
 (.node 1 (.leaf 1025567055)
 (.leaf 1025579135)))
 (.node 2 (.node 1 (.leaf 1025588698)
 (.leaf 1025591214))
 (.node 1 (.leaf 1025596247)
 (.leaf 1025621414)))))
 (.node 8 (.node 4 (.node 2 (.node 1 (.leaf 1025625036)
 (.leaf 1025634700))
 (.node 1 (.leaf 1025636512)
 (.leaf 1025645169)))
 (.node 2 (.node 1 (.leaf 1025649934)
 (.leaf 1025651612))
 (.node 1 (.leaf 1025693891)
 (.leaf 1025708654))))
 (.node 4 (.node 2 (.node 1 (.leaf 1025712010)
 (.leaf 1025713017))
 (.node 1 (.leaf 1025730130)
 (.leaf 1025732142)))
 (.node 2 (.node 1 (.leaf 1025732143)
 (.leaf 1025751268))
 (.node 1 (.leaf 1025751269)
 (.leaf 1025762341)))))))
 (.node 32 (.node 16 (.node 8 (.node 4 (.node 2 (.node 1 (.leaf 1025767375)
 (.leaf 1025781871))
 (.node 1 (.leaf 1025793587)
 (.leaf 1025808646)))
 (.node 2 (.node 1 (.leaf 1025822740)
 (.leaf 1025826095))
 (.node 1 (.leaf 1025844885)
 (.leaf 1025854549))))
 (.node 4 (.node 2 (.node 1 (.leaf 1025884815)
 (.leaf 1025893204))
 (.node 1 (.leaf 1025923402)
 (.leaf 1025923403)))
 (.node 2 (.node 1 (.leaf 1025923404)
 (.leaf 1025928436))
 (.node 1 (.leaf 1025943536)
 (.leaf 1025946353)))))
 (.node 8 (.node 4 (.node 2 (.node 1 (.leaf 1025949576)
 (.leaf 1025953601))
 (.node 1 (.leaf 1025957629)
 (.leaf 1025959884)))
 (.node 2 (.node 1 (.leaf 1025961654)
 (.leaf 1025961655))
 (.node 1 (.leaf 1025980780)
 (.leaf 1025999907))))
 (.node 4 (.node 2 (.node 1 (.leaf 1026002256)
 (.leaf 1026008967))
 (.node 1 (.leaf 1026013999)
 (.leaf 1026038159)))
 (.node 2 (.node 1 (.leaf 1026038160)
 (.leaf 1026060976))
 (.node 1 (.leaf 1026074397)
 (.leaf 1026076411))))))
 (.node 16 (.node 8 (.node 4 (.node 2 (.node 1 (.leaf 1026094531)
 (.leaf 1026095537))
 (.node 1 (.leaf 1026096141)
 (.leaf 1026114663)))
 (.node 2 (.node 1 (.leaf 1026119696)
 (.leaf 1026126743))
 (.node 1 (.leaf 1026134393)
 (.leaf 1026134795))))
 (.node 4 (.node 2 (.node 1 (.leaf 1026152915)
 (.leaf 1026178417))
 (.node 1 (.leaf 1026195193)
 (.leaf 1026195194)))
 (.node 2 (.node 1 (.leaf 1026210293)
 (.leaf 1026231433))
 (.node 1 (.leaf 1026257270)
 (.leaf 1026267671)))))
 (.node 8 (.node 4 (.node 2 (.node 1 (.leaf 1026267672)
 (.leaf 1026286797))
 (.node 1 (.leaf 1026289817)
 (.leaf 1026295857)))
 (.node 2 (.node 1 (.leaf 1026305923)
 (.leaf 1026315990))
 (.node 1 (.leaf 1026319345)
 (.leaf 1026325049))))
 (.node 4 (.node 2 (.node 1 (.leaf 1026346592)
 (.leaf 1026348202))
 (.node 1 (.leaf 1026381421)
 (.leaf 1026382427)))
 (.node 2 (.node 1 (.leaf 1026382428)
 (.leaf 1026390844))
 (.node 1 (.leaf 1026400278)
 (.leaf 1026401553))))))))
 (.node 64 (.node 32 (.node 16 (.node 8 (.node 4 (.node 2 (.node 1 (.leaf 1026403769)
 (.leaf 1026413297))
 (.node 1 (.leaf 1026424706)
 (.leaf 1026442221)))
 (.node 2 (.node 1 (.leaf 1026443496)
 (.leaf 1026445241))
 (.node 1 (.leaf 1026458931)
 (.leaf 1026464972))))
 (.node 4 (.node 2 (.node 1 (.leaf 1026472018)
 (.leaf 1026497183))
 (.node 1 (.leaf 1026497185)
 (.leaf 1026503526)))
 (.node 2 (.node 1 (.leaf 1026504431)
 (.leaf 1026505572))
 (.node 1 (.leaf 1026523357)
 (.leaf 1026530739)))))
 (.node 8 (.node 4 (.node 2 (.node 1 (.leaf 1026535436)
 (.leaf 1026543489))
 (.node 1 (.leaf 1026557581)
 (.leaf 1026560937)))
 (.node 2 (.node 1 (.leaf 1026567648)
 (.leaf 1026588989))
 (.node 1 (.leaf 1026602881)
 (.leaf 1026617979))))
 (.node 4 (.node 2 (.node 1 (.leaf 1026617980)
 (.leaf 1026621670))
 (.node 1 (.leaf 1026622812)
 (.leaf 1026624690)))
 (.node 2 (.node 1 (.leaf 1026629724)
 (.leaf 1026662272))
 (.node 1 (.leaf 1026669318)
 (.leaf 1026678377))))))
 (.node 16 (.node 8 (.node 4 (.node 2 (.node 1 (.leaf 1026678378)
 (.leaf 1026682404))
 (.node 1 (.leaf 1026685759)
 (.leaf 1026688444)))
 (.node 2 (.node 1 (.leaf 1026691800)
 (.leaf 1026698511))
 (.node 1 (.leaf 1026726696)
 (.leaf 1026726697))))
 (.node 4 (.node 2 (.node 1 (.leaf 1026738775)
 (.leaf 1026738776))
 (.node 1 (.leaf 1026743137)
 (.leaf 1026746828)))
 (.node 2 (.node 1 (.leaf 1026749848)
 (.leaf 1026752197))
 (.node 1 (.leaf 1026753875)
 (.leaf 1026771632)))))
 (.node 8 (.node 4 (.node 2 (.node 1 (.leaf 1026777833)
 (.leaf 1026784075))
 (.node 1 (.leaf 1026799174)
 (.leaf 1026803200)))
 (.node 2 (.node 1 (.leaf 1026803201)
 (.leaf 1026803871))
 (.node 1 (.leaf 1026807897)
 (.leaf 1026811253))))
 (.node 4 (.node 2 (.node 1 (.leaf 1026813937)
 (.leaf 1026815950))
 (.node 1 (.leaf 1026815951)
 (.leaf 1026856753)))
 (.node 2 (.node 1 (.leaf 1026864605)
 (.leaf 1026878026))
 (.node 1 (.leaf 1026879704)
 (.leaf 1026887355)))))))
 (.node 32 (.node 16 (.node 8 (.node 4 (.node 2 (.node 1 (.leaf 1026899837)
 (.leaf 1026919970))
 (.node 1 (.leaf 1026925338)
 (.leaf 1026930036)))
 (.node 2 (.node 1 (.leaf 1026937417)
 (.leaf 1026940102))
 (.node 1 (.leaf 1026942116)
 (.leaf 1026943458))))
 (.node 4 (.node 2 (.node 1 (.leaf 1026954276)
 (.leaf 1026956208))
 (.node 1 (.leaf 1026973120)
 (.leaf 1026980368)))
 (.node 2 (.node 1 (.leaf 1026986072)
 (.leaf 1026991105))
 (.node 1 (.leaf 1026995467)
 (.leaf 1027002177)))))
 (.node 8 (.node 4 (.node 2 (.node 1 (.leaf 1027004527)
 (.leaf 1027006204))
 (.node 1 (.leaf 1027007211)
 (.leaf 1027013588)))
 (.node 2 (.node 1 (.leaf 1027017411)
 (.leaf 1027051235))
 (.node 1 (.leaf 1027052174)
 (.leaf 1027056872))))
 (.node 4 (.node 2 (.node 1 (.leaf 1027060898)
 (.leaf 1027064253))
 (.node 1 (.leaf 1027064254)
 (.leaf 1027068951)))
 (.node 2 (.node 1 (.leaf 1027070293)
 (.leaf 1027070964))
 (.node 1 (.leaf 1027070965)
 (.leaf 1027101163))))))
 (.node 16 (.node 8 (.node 4 (.node 2 (.node 1 (.leaf 1027107539)
 (.leaf 1027113243))
 (.node 1 (.leaf 1027118276)
 (.leaf 1027122638)))
 (.node 2 (.node 1 (.leaf 1027133376)
 (.leaf 1027134382))
 (.node 1 (.leaf 1027134718)
 (.leaf 1027161299))))
 (.node 4 (.node 2 (.node 1 (.leaf 1027168272)
 (.leaf 1027179681))
 (.node 1 (.leaf 1027184378)
 (.leaf 1027185721)))
 (.node 2 (.node 1 (.leaf 1027188405)
 (.leaf 1027188406))
 (.node 1 (.leaf 1027198471)
 (.leaf 1027204846)))))
 (.node 8 (.node 4 (.node 2 (.node 1 (.leaf 1027230496)
 (.leaf 1027250480))
 (.node 1 (.leaf 1027257192)
 (.leaf 1027259540)))
 (.node 2 (.node 1 (.leaf 1027262225)
 (.leaf 1027262560))
 (.node 1 (.leaf 1027316583)
 (.leaf 1027319939))))
 (.node 4 (.node 2 (.node 1 (.leaf 1027325978)
 (.leaf 1027338729))
 (.node 1 (.leaf 1027357856)
 (.leaf 1027369599)))
 (.node 2 (.node 1 (.leaf 1027376980)
 (.leaf 1027376982))
 (.node 1 (.leaf 1027385705)
 (.leaf 1027389731))))))))))
 (.node 256 (.node 128 (.node 64 (.node 32 (.node 16 (.node 8 (.node 4 (.node 2 (.node 1 (.leaf 1027390738)
 (.leaf 1027391073))
 (.node 1 (.leaf 1027415233)
 (.leaf 1027415234)))
 (.node 2 (.node 1 (.leaf 1027448788)
 (.leaf 1027451472))
 (.node 1 (.leaf 1027453485)
 (.leaf 1027468384))))
 (.node 4 (.node 2 (.node 1 (.leaf 1027472611)
 (.leaf 1027503817))
 (.node 1 (.leaf 1027514890)
 (.leaf 1027517239)))
 (.node 2 (.node 1 (.leaf 1027519922)
 (.leaf 1027519923))
 (.node 1 (.leaf 1027552940)
 (.leaf 1027580992)))))
 (.node 8 (.node 4 (.node 2 (.node 1 (.leaf 1027583005)
 (.leaf 1027587608))
 (.node 1 (.leaf 1027598038)
 (.leaf 1027637096)))
 (.node 2 (.node 1 (.leaf 1027644745)
 (.leaf 1027644746))
 (.node 1 (.leaf 1027647094)
 (.leaf 1027708499))))
 (.node 4 (.node 2 (.node 1 (.leaf 1027727692)
 (.leaf 1027767151))
 (.node 1 (.leaf 1027767152)
 (.leaf 1027772252)))
 (.node 2 (.node 1 (.leaf 1027777621)
 (.leaf 1027777622))
 (.node 1 (.leaf 1027780642)
 (.leaf 1027845401))))))
 (.node 16 (.node 8 (.node 4 (.node 2 (.node 1 (.leaf 1027848487)
 (.leaf 1027874257))
 (.node 1 (.leaf 1027874258)
 (.leaf 1027906470)))
 (.node 2 (.node 1 (.leaf 1027910497)
 (.leaf 1027931636))
 (.node 1 (.leaf 1027973579)
 (.leaf 1027977606))))
 (.node 4 (.node 2 (.node 1 (.leaf 1027981363)
 (.leaf 1028008140))
 (.node 1 (.leaf 1028027266)
 (.leaf 1028043708)))
 (.node 2 (.node 1 (.leaf 1028077194)
 (.leaf 1028086858))
 (.node 1 (.leaf 1028102563)
 (.leaf 1028103769)))))
 (.node 8 (.node 4 (.node 2 (.node 1 (.leaf 1028103770)
 (.leaf 1028109810))
 (.node 1 (.leaf 1028117360)
 (.leaf 1028131956)))
 (.node 2 (.node 1 (.leaf 1028169645)
 (.leaf 1028218526))
 (.node 1 (.leaf 1028218527)
 (.leaf 1028242015))))
 (.node 4 (.node 2 (.node 1 (.leaf 1028249128)
 (.leaf 1028254201))
 (.node 1 (.leaf 1028333282)
 (.leaf 1028403343)))
 (.node 2 (.node 1 (.leaf 1028409786)
 (.leaf 1028409787))
 (.node 1 (.leaf 1028480250)
 (.leaf 1028516892)))))))
 (.node 32 (.node 16 (.node 8 (.node 4 (.node 2 (.node 1 (.leaf 1028550715)
 (.leaf 1028562794))
 (.node 1 (.leaf 1028634064)
 (.leaf 1028677551)))
 (.node 2 (.node 1 (.leaf 1028731103)
 (.leaf 1028749424))
 (.node 1 (.leaf 1028792307)
 (.leaf 1028792308))))
 (.node 4 (.node 2 (.node 1 (.leaf 1028830560)
 (.leaf 1028832572))
 (.node 1 (.leaf 1028836934)
 (.leaf 1028838210)))
 (.node 2 (.node 1 (.leaf 1028864785)
 (.leaf 1028891763))
 (.node 1 (.leaf 1028907064)
 (.leaf 1028945314)))))
 (.node 8 (.node 4 (.node 2 (.node 1 (.leaf 1028945315)
 (.leaf 1028998868))
 (.node 1 (.leaf 1029002694)
 (.leaf 1029009740)))
 (.node 2 (.node 1 (.leaf 1029082217)
 (.leaf 1029082218))
 (.node 1 (.leaf 1029098322)
 (.leaf 1029114430))))
 (.node 4 (.node 2 (.node 1 (.leaf 1029117450)
 (.leaf 1029136576))
 (.node 1 (.leaf 1029159527)
 (.leaf 1029164037)))
 (.node 2 (.node 1 (.leaf 1029193954)
 (.leaf 1029213080))
 (.node 1 (.leaf 1029238446)
 (.leaf 1029266632))))))
 (.node 16 (.node 8 (.node 4 (.node 2 (.node 1 (.leaf 1029266633)
 (.leaf 1029269692))
 (.node 1 (.leaf 1029293126)
 (.leaf 1029299650)))
 (.node 2 (.node 1 (.leaf 1029327835)
 (.leaf 1029327836))
 (.node 1 (.leaf 1029366088)
 (.leaf 1029375148))))
 (.node 4 (.node 2 (.node 1 (.leaf 1029385013)
 (.leaf 1029442591))
 (.node 1 (.leaf 1029454067)
 (.leaf 1029466751)))
 (.node 2 (.node 1 (.leaf 1029472791)
 (.leaf 1029480843))
 (.node 1 (.leaf 1029480844)
 (.leaf 1029480845)))))
 (.node 8 (.node 4 (.node 2 (.node 1 (.leaf 1029492318)
 (.leaf 1029492320))
 (.node 1 (.leaf 1029556945)
 (.leaf 1029572447)))
 (.node 2 (.node 1 (.leaf 1029587950)
 (.leaf 1029629020))
 (.node 1 (.leaf 1029641501)
 (.leaf 1029641502))))
 (.node 4 (.node 2 (.node 1 (.leaf 1029652978)
 (.leaf 1029678144))
 (.node 1 (.leaf 1029707135)
 (.leaf 1029709149)))
 (.node 2 (.node 1 (.leaf 1029710356)
 (.leaf 1029721831))
 (.node 1 (.leaf 1029729986)
 (.leaf 1029748608))))))))
 (.node 64 (.node 32 (.node 16 (.node 8 (.node 4 (.node 2 (.node 1 (.leaf 1029785250)
 (.leaf 1029786859))
 (.node 1 (.leaf 1029825113)
 (.leaf 1029863363)))
 (.node 2 (.node 1 (.leaf 1029863364)
 (.leaf 1029920742))
 (.node 1 (.leaf 1029922856)
 (.leaf 1029932049))))
 (.node 4 (.node 2 (.node 1 (.leaf 1029939868)
 (.leaf 1029939869))
 (.node 1 (.leaf 1029978120)
 (.leaf 1029981140)))
 (.node 2 (.node 1 (.leaf 1030013555)
 (.leaf 1030016372))
 (.node 1 (.leaf 1030016373)
 (.leaf 1030018386)))))
 (.node 8 (.node 4 (.node 2 (.node 1 (.leaf 1030018387)
 (.leaf 1030169381))
 (.node 1 (.leaf 1030175421)
 (.leaf 1030188505)))
 (.node 2 (.node 1 (.leaf 1030253939)
 (.leaf 1030284136))
 (.node 1 (.leaf 1030284137)
 (.leaf 1030284138))))
 (.node 4 (.node 2 (.node 1 (.leaf 1030303262)
 (.leaf 1030303263))
 (.node 1 (.leaf 1030322388)
 (.leaf 1030322389)))
 (.node 2 (.node 1 (.leaf 1030330844)
 (.leaf 1030332457))
 (.node 1 (.leaf 1030337689)
 (.leaf 1030391243))))))
 (.node 16 (.node 8 (.node 4 (.node 2 (.node 1 (.leaf 1030402919)
 (.leaf 1030427985))
 (.node 1 (.leaf 1030437146)
 (.leaf 1030444795)))
 (.node 2 (.node 1 (.leaf 1030498348)
 (.leaf 1030507811))
 (.node 1 (.leaf 1030513650)
 (.leaf 1030520024))))
 (.node 4 (.node 2 (.node 1 (.leaf 1030605453)
 (.leaf 1030628406))
 (.node 1 (.leaf 1030644512)
 (.leaf 1030647533)))
 (.node 2 (.node 1 (.leaf 1030685783)
 (.leaf 1030688320))
 (.node 1 (.leaf 1030766112)
 (.leaf 1030766113)))))
 (.node 8 (.node 4 (.node 2 (.node 1 (.leaf 1030766115)
 (.leaf 1030792890))
 (.node 1 (.leaf 1030857918)
 (.leaf 1030878855)))
 (.node 2 (.node 1 (.leaf 1030919153)
 (.leaf 1030926772))
 (.node 1 (.leaf 1030931845)
 (.leaf 1030934421))))
 (.node 4 (.node 2 (.node 1 (.leaf 1030934422)
 (.leaf 1030953548))
 (.node 1 (.leaf 1030956971)
 (.leaf 1030968084)))
 (.node 2 (.node 1 (.leaf 1031010926)
 (.leaf 1031010927))
 (.node 1 (.leaf 1031033876)
 (.leaf 1031058742)))))))
 (.node 32 (.node 16 (.node 8 (.node 4 (.node 2 (.node 1 (.leaf 1031087430)
 (.leaf 1031087431))
 (.node 1 (.leaf 1031101925)
 (.leaf 1031140984)))
 (.node 2 (.node 1 (.leaf 1031171988)
 (.leaf 1031176684))
 (.node 1 (.leaf 1031274665)
 (.leaf 1031278690))))
 (.node 4 (.node 2 (.node 1 (.leaf 1031288957)
 (.leaf 1031341101))
 (.node 1 (.leaf 1031347545)
 (.leaf 1031353182)))
 (.node 2 (.node 1 (.leaf 1031355194)
 (.leaf 1031374320))
 (.node 1 (.leaf 1031408748)
 (.leaf 1031425658)))))
 (.node 8 (.node 4 (.node 2 (.node 1 (.leaf 1031425659)
 (.leaf 1031431698))
 (.node 1 (.leaf 1031431700)
 (.leaf 1031469952)))
 (.node 2 (.node 1 (.leaf 1031489077)
 (.leaf 1031515853))
 (.node 1 (.leaf 1031546456)
 (.leaf 1031594775))))
 (.node 4 (.node 2 (.node 1 (.leaf 1031603832)
 (.leaf 1031604438))
 (.node 1 (.leaf 1031608363)
 (.leaf 1031627993)))
 (.node 2 (.node 1 (.leaf 1031661211)
 (.leaf 1031737714))
 (.node 1 (.leaf 1031737717)
 (.leaf 1031807267))))))
 (.node 16 (.node 8 (.node 4 (.node 2 (.node 1 (.leaf 1031813045)
 (.leaf 1031825627))
 (.node 1 (.leaf 1031825628)
 (.leaf 1031844753)))
 (.node 2 (.node 1 (.leaf 1031844754)
 (.leaf 1031846565))
 (.node 1 (.leaf 1031856230)
 (.leaf 1031863879))))
 (.node 4 (.node 2 (.node 1 (.leaf 1031863880)
 (.leaf 1031875858))
 (.node 1 (.leaf 1031902132)
 (.leaf 1031914916)))
 (.node 2 (.node 1 (.leaf 1031917534)
 (.leaf 1031917755))
 (.node 1 (.leaf 1031931189)
 (.leaf 1031949946)))))
 (.node 8 (.node 4 (.node 2 (.node 1 (.leaf 1031958503)
 (.leaf 1031975112))
 (.node 1 (.leaf 1031978635)
 (.leaf 1031978636)))
 (.node 2 (.node 1 (.leaf 1031988199)
 (.leaf 1032002795))
 (.node 1 (.leaf 1032016888)
 (.leaf 1032036014))))
 (.node 4 (.node 2 (.node 1 (.leaf 1032041852)
 (.leaf 1032045577))
 (.node 1 (.leaf 1032051616)
 (.leaf 1032058965)))
 (.node 2 (.node 1 (.leaf 1032066717)
 (.leaf 1032085741))
 (.node 1 (.leaf 1032085742)
 (.leaf 1032107485)))))))))
 (.node 128 (.node 64 (.node 32 (.node 16 (.node 8 (.node 4 (.node 2 (.node 1 (.leaf 1032109230)
 (.leaf 1032111109))
 (.node 1 (.leaf 1032112517)
 (.leaf 1032112518)))
 (.node 2 (.node 1 (.leaf 1032131644)
 (.leaf 1032155501))
 (.node 1 (.leaf 1032158320)
 (.leaf 1032189022))))
 (.node 4 (.node 2 (.node 1 (.leaf 1032190784)
 (.leaf 1032198082))
 (.node 1 (.leaf 1032204122)
 (.leaf 1032208148)))
 (.node 2 (.node 1 (.leaf 1032213937)
 (.leaf 1032219623))
 (.node 1 (.leaf 1032246400)
 (.leaf 1032269352)))))
 (.node 8 (.node 4 (.node 2 (.node 1 (.leaf 1032284652)
 (.leaf 1032288679))
 (.node 1 (.leaf 1032300758)
 (.leaf 1032303779)))
 (.node 2 (.node 1 (.leaf 1032304463)
 (.leaf 1032313341))
 (.node 1 (.leaf 1032315254)
 (.leaf 1032344547))))
 (.node 4 (.node 2 (.node 1 (.leaf 1032358720)
 (.leaf 1032361156))
 (.node 1 (.leaf 1032361157)
 (.leaf 1032370216)))
 (.node 2 (.node 1 (.leaf 1032373840)
 (.leaf 1032394375))
 (.node 1 (.leaf 1032407059)
 (.leaf 1032432426))))))
 (.node 16 (.node 8 (.node 4 (.node 2 (.node 1 (.leaf 1032437660)
 (.leaf 1032447223))
 (.node 1 (.leaf 1032447224)
 (.leaf 1032456787)))
 (.node 2 (.node 1 (.leaf 1032460814)
 (.leaf 1032470195))
 (.node 1 (.leaf 1032475913)
 (.leaf 1032491012))))
 (.node 4 (.node 2 (.node 1 (.leaf 1032495038)
 (.leaf 1032514164))
 (.node 1 (.leaf 1032514165)
 (.leaf 1032533290)))
 (.node 2 (.node 1 (.leaf 1032567716)
 (.leaf 1032567718))
 (.node 1 (.leaf 1032569127)
 (.leaf 1032590669)))))
 (.node 8 (.node 4 (.node 2 (.node 1 (.leaf 1032596467)
 (.leaf 1032603513))
 (.node 1 (.leaf 1032609795)
 (.leaf 1032638988)))
 (.node 2 (.node 1 (.leaf 1032648047)
 (.leaf 1032667173))
 (.node 1 (.leaf 1032690257)
 (.leaf 1032691171))))
 (.node 4 (.node 2 (.node 1 (.leaf 1032705425)
 (.leaf 1032725356))
 (.node 1 (.leaf 1032728376)
 (.leaf 1032734114)))
 (.node 2 (.node 1 (.leaf 1032735623)
 (.leaf 1032735624))
 (.node 1 (.leaf 1032773373)
 (.leaf 1032781929)))))))
 (.node 32 (.node 16 (.node 8 (.node 4 (.node 2 (.node 1 (.leaf 1032783942)
 (.leaf 1032793908))
 (.node 1 (.leaf 1032803270)
 (.leaf 1032808705)))
 (.node 2 (.node 1 (.leaf 1032820181)
 (.leaf 1032829744))
 (.node 1 (.leaf 1032835482)
 (.leaf 1032836018))))
 (.node 4 (.node 2 (.node 1 (.leaf 1032839306)
 (.leaf 1032839307))
 (.node 1 (.leaf 1032842528)
 (.leaf 1032845681)))
 (.node 2 (.node 1 (.leaf 1032871821)
 (.leaf 1032877559))
 (.node 1 (.leaf 1032877560)
 (.leaf 1032880580)))))
 (.node 8 (.node 4 (.node 2 (.node 1 (.leaf 1032885088)
 (.leaf 1032888933))
 (.node 1 (.leaf 1032896685)
 (.leaf 1032907758)))
 (.node 2 (.node 1 (.leaf 1032927388)
 (.leaf 1032934937))
 (.node 1 (.leaf 1032957888)
 (.leaf 1032967553))))
 (.node 4 (.node 2 (.node 1 (.leaf 1032973189)
 (.leaf 1032979229))
 (.node 1 (.leaf 1032979481)
 (.leaf 1033001878)))
 (.node 2 (.node 1 (.leaf 1033006569)
 (.leaf 1033028554))
 (.node 1 (.leaf 1033049693)
 (.leaf 1033049694))))))
 (.node 16 (.node 8 (.node 4 (.node 2 (.node 1 (.leaf 1033076470)
 (.leaf 1033077879))
 (.node 1 (.leaf 1033080932)
 (.leaf 1033087946)))
 (.node 2 (.node 1 (.leaf 1033099018)
 (.leaf 1033107071))
 (.node 1 (.leaf 1033130023)
 (.leaf 1033156798))))
 (.node 4 (.node 2 (.node 1 (.leaf 1033156799)
 (.leaf 1033164449))
 (.node 1 (.leaf 1033164450)
 (.leaf 1033193139)))
 (.node 2 (.node 1 (.leaf 1033202701)
 (.leaf 1033209144))
 (.node 1 (.leaf 1033215788)
 (.leaf 1033221827)))))
 (.node 8 (.node 4 (.node 2 (.node 1 (.leaf 1033231391)
 (.leaf 1033249006))
 (.node 1 (.leaf 1033250517)
 (.leaf 1033252631)))
 (.node 2 (.node 1 (.leaf 1033267126)
 (.leaf 1033279206))
 (.node 1 (.leaf 1033283082)
 (.leaf 1033291688))))
 (.node 4 (.node 2 (.node 1 (.leaf 1033303365)
 (.leaf 1033311216))
 (.node 1 (.leaf 1033317458)
 (.leaf 1033318464)))
 (.node 2 (.node 1 (.leaf 1033336080)
 (.leaf 1033355710))
 (.node 1 (.leaf 1033369803)
 (.leaf 1033393962))))))))
 (.node 64 (.node 32 (.node 16 (.node 8 (.node 4 (.node 2 (.node 1 (.leaf 1033403524)
 (.leaf 1033404834))
 (.node 1 (.leaf 1033408860)
 (.leaf 1033421745)))
 (.node 2 (.node 1 (.leaf 1033424563)
 (.leaf 1033451340))
 (.node 1 (.leaf 1033456037)
 (.leaf 1033472479))))
 (.node 4 (.node 2 (.node 1 (.leaf 1033480030)
 (.leaf 1033489844))
 (.node 1 (.leaf 1033504188)
 (.leaf 1033504892)))
 (.node 2 (.node 1 (.leaf 1033526032)
 (.leaf 1033527844))
 (.node 1 (.leaf 1033531669)
 (.leaf 1033531670)))))
 (.node 8 (.node 4 (.node 2 (.node 1 (.leaf 1033546970)
 (.leaf 1033565089))
 (.node 1 (.leaf 1033566096)
 (.leaf 1033585222)))
 (.node 2 (.node 1 (.leaf 1033585223)
 (.leaf 1033623474))
 (.node 1 (.leaf 1033635392)
 (.leaf 1033648388))))
 (.node 4 (.node 2 (.node 1 (.leaf 1033652162)
 (.leaf 1033680349))
 (.node 1 (.leaf 1033690416)
 (.leaf 1033701790)))
 (.node 2 (.node 1 (.leaf 1033708032)
 (.leaf 1033717847))
 (.node 1 (.leaf 1033719104)
 (.leaf 1033728667))))))
 (.node 16 (.node 8 (.node 4 (.node 2 (.node 1 (.leaf 1033738231)
 (.leaf 1033740807))
 (.node 1 (.leaf 1033745881)
 (.leaf 1033766920)))
 (.node 2 (.node 1 (.leaf 1033775006)
 (.leaf 1033792588))
 (.node 1 (.leaf 1033792589)
 (.leaf 1033794099))))
 (.node 4 (.node 2 (.node 1 (.leaf 1033809198)
 (.leaf 1033813728))
 (.node 1 (.leaf 1033814734)
 (.leaf 1033818962)))
 (.node 2 (.node 1 (.leaf 1033852986)
 (.leaf 1033852987))
 (.node 1 (.leaf 1033879763)
 (.leaf 1033901305)))))
 (.node 8 (.node 4 (.node 2 (.node 1 (.leaf 1033906539)
 (.leaf 1033906540))
 (.node 1 (.leaf 1033907947)
 (.leaf 1033910365)))
 (.node 2 (.node 1 (.leaf 1033923115)
 (.leaf 1033929490))
 (.node 1 (.leaf 1033929491)
 (.leaf 1033948617))))
 (.node 4 (.node 2 (.node 1 (.leaf 1033967742)
 (.leaf 1033967743))
 (.node 1 (.leaf 1033977306)
 (.leaf 1033996432)))
 (.node 2 (.node 1 (.leaf 1033998612)
 (.leaf 1034010021))
 (.node 1 (.leaf 1034010022)
 (.leaf 1034013645)))))))
 (.node 32 (.node 16 (.node 8 (.node 4 (.node 2 (.node 1 (.leaf 1034017027)
 (.leaf 1034019836))
 (.node 1 (.leaf 1034025121)
 (.leaf 1034025122)))
 (.node 2 (.node 1 (.leaf 1034054515)
 (.leaf 1034076157))
 (.node 1 (.leaf 1034082499)
 (.leaf 1034093975))))
 (.node 4 (.node 2 (.node 1 (.leaf 1034099612)
 (.leaf 1034107362))
 (.node 1 (.leaf 1034120751)
 (.leaf 1034130313)))
 (.node 2 (.node 1 (.leaf 1034139877)
 (.leaf 1034150950))
 (.node 1 (.leaf 1034168566)
 (.leaf 1034170479)))))
 (.node 8 (.node 4 (.node 2 (.node 1 (.leaf 1034173096)
 (.leaf 1034182760))
 (.node 1 (.leaf 1034187692)
 (.leaf 1034190007)))
 (.node 2 (.node 1 (.leaf 1034197254)
 (.leaf 1034197255))
 (.node 1 (.leaf 1034201080)
 (.leaf 1034206315))))
 (.node 4 (.node 2 (.node 1 (.leaf 1034212355)
 (.leaf 1034225189))
 (.node 1 (.leaf 1034225944)
 (.leaf 1034233494)))
 (.node 2 (.node 1 (.leaf 1034243158)
 (.leaf 1034254029))
 (.node 1 (.leaf 1034254633)
 (.leaf 1034281812))))))
 (.node 16 (.node 8 (.node 4 (.node 2 (.node 1 (.leaf 1034307179)
 (.leaf 1034308186))
 (.node 1 (.leaf 1034312010)
 (.leaf 1034312011)))
 (.node 2 (.node 1 (.leaf 1034312012)
 (.leaf 1034332144))
 (.node 1 (.leaf 1034334961)
 (.leaf 1034334962))))
 (.node 4 (.node 2 (.node 1 (.leaf 1034338626)
 (.leaf 1034346236))
 (.node 1 (.leaf 1034346237)
 (.leaf 1034350263)))
 (.node 2 (.node 1 (.leaf 1034366621)
 (.leaf 1034368785))
 (.node 1 (.leaf 1034369019)
 (.leaf 1034369389)))))
 (.node 8 (.node 4 (.node 2 (.node 1 (.leaf 1034369390)
 (.leaf 1034372576))
 (.node 1 (.leaf 1034388515)
 (.leaf 1034426767)))
 (.node 2 (.node 1 (.leaf 1034426768)
 (.leaf 1034427069))
 (.node 1 (.leaf 1034428257)
 (.leaf 1034446296))))
 (.node 4 (.node 2 (.node 1 (.leaf 1034455457)
 (.leaf 1034478710))
 (.node 1 (.leaf 1034482937)
 (.leaf 1034484146)))
 (.node 2 (.node 1 (.leaf 1034493709)
 (.leaf 1034503271))
 (.node 1 (.leaf 1034538486)
 (.leaf 1034541524))))))))))))
 (.node 1024 (.node 512 (.node 256 (.node 128 (.node 64 (.node 32 (.node 16 (.node 8 (.node 4 (.node 2 (.node 1 (.leaf 1034549173)
 (.leaf 1034553603))
 (.node 1 (.leaf 1034555112)
 (.leaf 1034560649)))
 (.node 2 (.node 1 (.leaf 1034561857)
 (.leaf 1034591369))
 (.node 1 (.leaf 1034600714)
 (.leaf 1034602727))))
 (.node 4 (.node 2 (.node 1 (.leaf 1034619638)
 (.leaf 1034624712))
 (.node 1 (.leaf 1034638161)
 (.leaf 1034643454)))
 (.node 2 (.node 1 (.leaf 1034646716)
 (.leaf 1034649233))
 (.node 1 (.leaf 1034656279)
 (.leaf 1034656280)))))
 (.node 8 (.node 4 (.node 2 (.node 1 (.leaf 1034658997)
 (.leaf 1034667605))
 (.node 1 (.leaf 1034715470)
 (.leaf 1034723221)))
 (.node 2 (.node 1 (.leaf 1034732784)
 (.leaf 1034735200))
 (.node 1 (.leaf 1034736609)
 (.leaf 1034756339))))
 (.node 4 (.node 2 (.node 1 (.leaf 1034763385)
 (.leaf 1034771036))
 (.node 1 (.leaf 1034773150)
 (.leaf 1034774660)))
 (.node 2 (.node 1 (.leaf 1034775565)
 (.leaf 1034790161))
 (.node 1 (.leaf 1034790162)
 (.leaf 1034792377))))))
 (.node 16 (.node 8 (.node 4 (.node 2 (.node 1 (.leaf 1034801990)
 (.leaf 1034828414))
 (.node 1 (.leaf 1034830829)
 (.leaf 1034830830)))
 (.node 2 (.node 1 (.leaf 1034834453)
 (.leaf 1034840443))
 (.node 1 (.leaf 1034847539)
 (.leaf 1034847540))))
 (.node 4 (.node 2 (.node 1 (.leaf 1034850056)
 (.leaf 1034853278))
 (.node 1 (.leaf 1034885791)
 (.leaf 1034885792)))
 (.node 2 (.node 1 (.leaf 1034885793)
 (.leaf 1034893040))
 (.node 1 (.leaf 1034897267)
 (.leaf 1034900932)))))
 (.node 8 (.node 4 (.node 2 (.node 1 (.leaf 1034924044)
 (.leaf 1034946190))
 (.node 1 (.leaf 1034952230)
 (.leaf 1034952231)))
 (.node 2 (.node 1 (.leaf 1034969845)
 (.leaf 1034969846))
 (.node 1 (.leaf 1034971860)
 (.leaf 1034977597))))
 (.node 4 (.node 2 (.node 1 (.leaf 1034978402)
 (.leaf 1034981422))
 (.node 1 (.leaf 1035011420)
 (.leaf 1035036787)))
 (.node 2 (.node 1 (.leaf 1035038800)
 (.leaf 1035057925))
 (.node 1 (.leaf 1035066986)
 (.leaf 1035077052)))))))
 (.node 32 (.node 16 (.node 8 (.node 4 (.node 2 (.node 1 (.leaf 1035077053)
 (.leaf 1035096177))
 (.node 1 (.leaf 1035098091)
 (.leaf 1035105842)))
 (.node 2 (.node 1 (.leaf 1035110271)
 (.leaf 1035115304))
 (.node 1 (.leaf 1035124867)
 (.leaf 1035127384))))
 (.node 4 (.node 2 (.node 1 (.leaf 1035138256)
 (.leaf 1035138457))
 (.node 1 (.leaf 1035142484)
 (.leaf 1035157682)))
 (.node 2 (.node 1 (.leaf 1035166441)
 (.leaf 1035172682))
 (.node 1 (.leaf 1035172683)
 (.leaf 1035187782)))))
 (.node 8 (.node 4 (.node 2 (.node 1 (.leaf 1035187783)
 (.leaf 1035191808))
 (.node 1 (.leaf 1035191809)
 (.leaf 1035215263)))
 (.node 2 (.node 1 (.leaf 1035218585)
 (.leaf 1035220497))
 (.node 1 (.leaf 1035234591)
 (.leaf 1035241838))))
 (.node 4 (.node 2 (.node 1 (.leaf 1035253817)
 (.leaf 1035268312))
 (.node 1 (.leaf 1035268313)
 (.leaf 1035278832)))
 (.node 2 (.node 1 (.leaf 1035287439)
 (.leaf 1035318643))
 (.node 1 (.leaf 1035335003)
 (.leaf 1035344816))))))
 (.node 16 (.node 8 (.node 4 (.node 2 (.node 1 (.leaf 1035344817)
 (.leaf 1035361728))
 (.node 1 (.leaf 1035365854)
 (.leaf 1035389108)))
 (.node 2 (.node 1 (.leaf 1035402194)
 (.leaf 1035406019))
 (.node 1 (.leaf 1035407294)
 (.leaf 1035459572))))
 (.node 4 (.node 2 (.node 1 (.leaf 1035459573)
 (.leaf 1035468497))
 (.node 1 (.leaf 1035469136)
 (.leaf 1035486349)))
 (.node 2 (.node 1 (.leaf 1035489771)
 (.leaf 1035497825))
 (.node 1 (.leaf 1035504116)
 (.leaf 1035514938)))))
 (.node 8 (.node 4 (.node 2 (.node 1 (.leaf 1035517957)
 (.leaf 1035522991))
 (.node 1 (.leaf 1035532604)
 (.leaf 1035536449)))
 (.node 2 (.node 1 (.leaf 1035544131)
 (.leaf 1035554629))
 (.node 1 (.leaf 1035563860)
 (.leaf 1035564766))))
 (.node 4 (.node 2 (.node 1 (.leaf 1035574329)
 (.leaf 1035576543))
 (.node 1 (.leaf 1035586408)
 (.leaf 1035593454)))
 (.node 2 (.node 1 (.leaf 1035593455)
 (.leaf 1035596072))
 (.node 1 (.leaf 1035603017)
 (.leaf 1035603018))))))))
 (.node 64 (.node 32 (.node 16 (.node 8 (.node 4 (.node 2 (.node 1 (.leaf 1035612581)
 (.leaf 1035620231))
 (.node 1 (.leaf 1035633619)
 (.leaf 1035649826)))
 (.node 2 (.node 1 (.leaf 1035650833)
 (.leaf 1035654659))
 (.node 1 (.leaf 1035657577)
 (.leaf 1035658886))))
 (.node 4 (.node 2 (.node 1 (.leaf 1035695275)
 (.leaf 1035714586))
 (.node 1 (.leaf 1035718412)
 (.leaf 1035721700)))
 (.node 2 (.node 1 (.leaf 1035727337)
 (.leaf 1035746464))
 (.node 1 (.leaf 1035765588)
 (.leaf 1035776663)))))
 (.node 8 (.node 4 (.node 2 (.node 1 (.leaf 1035780890)
 (.leaf 1035784836))
 (.node 1 (.leaf 1035785823)
 (.leaf 1035803842)))
 (.node 2 (.node 1 (.leaf 1035811392)
 (.leaf 1035822967))
 (.node 1 (.leaf 1035840080)
 (.leaf 1035840081))))
 (.node 4 (.node 2 (.node 1 (.leaf 1035842093)
 (.leaf 1035847972))
 (.node 1 (.leaf 1035856991)
 (.leaf 1035861219)))
 (.node 2 (.node 1 (.leaf 1035867259)
 (.leaf 1035868265))
 (.node 1 (.leaf 1035903498)
 (.leaf 1035914068))))))
 (.node 16 (.node 8 (.node 4 (.node 2 (.node 1 (.leaf 1035924637)
 (.leaf 1035934301))
 (.node 1 (.leaf 1035941548)
 (.leaf 1035947287)))
 (.node 2 (.node 1 (.leaf 1035956849)
 (.leaf 1035960674))
 (.node 1 (.leaf 1035972956)
 (.leaf 1036008440))))
 (.node 4 (.node 2 (.node 1 (.leaf 1036022885)
 (.leaf 1036033353))
 (.node 1 (.leaf 1036033354)
 (.leaf 1036035266)))
 (.node 2 (.node 1 (.leaf 1036038387)
 (.leaf 1036071104))
 (.node 1 (.leaf 1036075431)
 (.leaf 1036086956)))))
 (.node 8 (.node 4 (.node 2 (.node 1 (.leaf 1036090731)
 (.leaf 1036090732))
 (.node 1 (.leaf 1036093751)
 (.leaf 1036099792)))
 (.node 2 (.node 1 (.leaf 1036103818)
 (.leaf 1036109858))
 (.node 1 (.leaf 1036128632)
 (.leaf 1036128984))))
 (.node 4 (.node 2 (.node 1 (.leaf 1036136031)
 (.leaf 1036145241))
 (.node 1 (.leaf 1036148110)
 (.leaf 1036152639)))
 (.node 2 (.node 1 (.leaf 1036176799)
 (.leaf 1036202619))
 (.node 1 (.leaf 1036234679)
 (.leaf 1036244746)))))))
 (.node 32 (.node 16 (.node 8 (.node 4 (.node 2 (.node 1 (.leaf 1036262865)
 (.leaf 1036262866))
 (.node 1 (.leaf 1036289642)
 (.leaf 1036295078)))
 (.node 2 (.node 1 (.leaf 1036299104)
 (.leaf 1036299105))
 (.node 1 (.leaf 1036313868)
 (.leaf 1036320244))))
 (.node 4 (.node 2 (.node 1 (.leaf 1036339370)
 (.leaf 1036343195))
 (.node 1 (.leaf 1036357689)
 (.leaf 1036369971)))
 (.node 2 (.node 1 (.leaf 1036383360)
 (.leaf 1036383996))
 (.node 1 (.leaf 1036387185)
 (.leaf 1036388192)))))
 (.node 8 (.node 4 (.node 2 (.node 1 (.leaf 1036390205)
 (.leaf 1036396748))
 (.node 1 (.leaf 1036415874)
 (.leaf 1036415875)))
 (.node 2 (.node 1 (.leaf 1036423525)
 (.leaf 1036431981))
 (.node 1 (.leaf 1036444562)
 (.leaf 1036446074))))
 (.node 4 (.node 2 (.node 1 (.leaf 1036456140)
 (.leaf 1036461575))
 (.node 1 (.leaf 1036463690)
 (.leaf 1036477078)))
 (.node 2 (.node 1 (.leaf 1036491170)
 (.leaf 1036492378))
 (.node 1 (.leaf 1036492380)
 (.leaf 1036506390))))))
 (.node 16 (.node 8 (.node 4 (.node 2 (.node 1 (.leaf 1036524087)
 (.leaf 1036530630))
 (.node 1 (.leaf 1036530631)
 (.leaf 1036533448)))
 (.node 2 (.node 1 (.leaf 1036533449)
 (.leaf 1036558252))
 (.node 1 (.leaf 1036568883)
 (.leaf 1036578445))))
 (.node 4 (.node 2 (.node 1 (.leaf 1036587001)
 (.leaf 1036592035))
 (.node 1 (.leaf 1036594383)
 (.leaf 1036601095)))
 (.node 2 (.node 1 (.leaf 1036601800)
 (.leaf 1036607134))
 (.node 1 (.leaf 1036607135)
 (.leaf 1036610958)))))
 (.node 8 (.node 4 (.node 2 (.node 1 (.leaf 1036622234)
 (.leaf 1036622990))
 (.node 1 (.leaf 1036624346)
 (.leaf 1036651125)))
 (.node 2 (.node 1 (.leaf 1036653439)
 (.leaf 1036664512))
 (.node 1 (.leaf 1036668741)
 (.leaf 1036674077))))
 (.node 4 (.node 2 (.node 1 (.leaf 1036689678)
 (.leaf 1036693895))
 (.node 1 (.leaf 1036718065)
 (.leaf 1036718970)))
 (.node 2 (.node 1 (.leaf 1036721890)
 (.leaf 1036727931))
 (.node 1 (.leaf 1036737795)
 (.leaf 1036738500)))))))))
 (.node 128 (.node 64 (.node 32 (.node 16 (.node 8 (.node 4 (.node 2 (.node 1 (.leaf 1036741016)
 (.leaf 1036758129))
 (.node 1 (.leaf 1036798394)
 (.leaf 1036798395)))
 (.node 2 (.node 1 (.leaf 1036806850)
 (.leaf 1036819392))
 (.node 1 (.leaf 1036831949)
 (.leaf 1036836646))))
 (.node 4 (.node 2 (.node 1 (.leaf 1036836647)
 (.leaf 1036875200))
 (.node 1 (.leaf 1036894025)
 (.leaf 1036905499)))
 (.node 2 (.node 1 (.leaf 1036905500)
 (.leaf 1036905501))
 (.node 1 (.leaf 1036939323)
 (.leaf 1036951402)))))
 (.node 8 (.node 4 (.node 2 (.node 1 (.leaf 1036959053)
 (.leaf 1036967509))
 (.node 1 (.leaf 1036976903)
 (.leaf 1036999721)))
 (.node 2 (.node 1 (.leaf 1037009787)
 (.leaf 1037023377))
 (.node 1 (.leaf 1037023881)
 (.leaf 1037035960))))
 (.node 4 (.node 2 (.node 1 (.leaf 1037050586)
 (.leaf 1037066158))
 (.node 1 (.leaf 1037066159)
 (.leaf 1037085285)))
 (.node 2 (.node 1 (.leaf 1037087499)
 (.leaf 1037093941))
 (.node 1 (.leaf 1037100383)
 (.leaf 1037100384))))))
 (.node 16 (.node 8 (.node 4 (.node 2 (.node 1 (.leaf 1037109192)
 (.leaf 1037119711))
 (.node 1 (.leaf 1037136976)
 (.leaf 1037150717)))
 (.node 2 (.node 1 (.leaf 1037158366)
 (.leaf 1037180915))
 (.node 1 (.leaf 1037180916)
 (.leaf 1037189975))))
 (.node 4 (.node 2 (.node 1 (.leaf 1037205325)
 (.leaf 1037209906))
 (.node 1 (.leaf 1037219168)
 (.leaf 1037226818)))
 (.node 2 (.node 1 (.leaf 1037248863)
 (.leaf 1037252637))
 (.node 1 (.leaf 1037253392)
 (.leaf 1037253393)))))
 (.node 8 (.node 4 (.node 2 (.node 1 (.leaf 1037254359)
 (.leaf 1037280371))
 (.node 1 (.leaf 1037319831)
 (.leaf 1037324360)))
 (.node 2 (.node 1 (.leaf 1037325870)
 (.leaf 1037325871))
 (.node 1 (.leaf 1037353050)
 (.leaf 1037353652))))
 (.node 4 (.node 2 (.node 1 (.leaf 1037353653)
 (.leaf 1037373182))
 (.node 1 (.leaf 1037377209)
 (.leaf 1037391301)))
 (.node 2 (.node 1 (.leaf 1037391302)
 (.leaf 1037398348))
 (.node 1 (.leaf 1037407206)
 (.leaf 1037452706)))))))
 (.node 32 (.node 16 (.node 8 (.node 4 (.node 2 (.node 1 (.leaf 1037467805)
 (.leaf 1037467806))
 (.node 1 (.leaf 1037470826)
 (.leaf 1037480488)))
 (.node 2 (.node 1 (.leaf 1037484112)
 (.leaf 1037488946))
 (.node 1 (.leaf 1037497401)
 (.leaf 1037507970))))
 (.node 4 (.node 2 (.node 1 (.leaf 1037509883)
 (.leaf 1037516392))
 (.node 1 (.leaf 1037525184)
 (.leaf 1037528203)))
 (.node 2 (.node 1 (.leaf 1037541793)
 (.leaf 1037548134))
 (.node 1 (.leaf 1037548135)
 (.leaf 1037553771)))))
 (.node 8 (.node 4 (.node 2 (.node 1 (.leaf 1037561020)
 (.leaf 1037563436))
 (.node 1 (.leaf 1037582560)
 (.leaf 1037582562)))
 (.node 2 (.node 1 (.leaf 1037601687)
 (.leaf 1037601688))
 (.node 1 (.leaf 1037608734)
 (.leaf 1037611251))))
 (.node 4 (.node 2 (.node 1 (.leaf 1037615782)
 (.leaf 1037627055))
 (.node 1 (.leaf 1037637926)
 (.leaf 1037655241)))
 (.node 2 (.node 1 (.leaf 1037655242)
 (.leaf 1037656549))
 (.node 1 (.leaf 1037685993)
 (.leaf 1037689768))))))
 (.node 16 (.node 8 (.node 4 (.node 2 (.node 1 (.leaf 1037695406)
 (.leaf 1037697318))
 (.node 1 (.leaf 1037706881)
 (.leaf 1037716443)))
 (.node 2 (.node 1 (.leaf 1037716444)
 (.leaf 1037748052))
 (.node 1 (.leaf 1037748957)
 (.leaf 1037754696))))
 (.node 4 (.node 2 (.node 1 (.leaf 1037762347)
 (.leaf 1037763756))
 (.node 1 (.leaf 1037764260)
 (.leaf 1037773622)))
 (.node 2 (.node 1 (.leaf 1037792947)
 (.leaf 1037802813))
 (.node 1 (.leaf 1037822342)
 (.leaf 1037824154)))))
 (.node 8 (.node 4 (.node 2 (.node 1 (.leaf 1037831200)
 (.leaf 1037837744))
 (.node 1 (.leaf 1037839808)
 (.leaf 1037853514)))
 (.node 2 (.node 1 (.leaf 1037864620)
 (.leaf 1037869451))
 (.node 1 (.leaf 1037869452)
 (.leaf 1037869453))))
 (.node 4 (.node 2 (.node 1 (.leaf 1037880928)
 (.leaf 1037882840))
 (.node 1 (.leaf 1037905690)
 (.leaf 1037905691)))
 (.node 2 (.node 1 (.leaf 1037917267)
 (.leaf 1037918636))
 (.node 1 (.leaf 1037945554)
 (.leaf 1037945955))))))))
 (.node 64 (.node 32 (.node 16 (.node 8 (.node 4 (.node 2 (.node 1 (.leaf 1037945956)
 (.leaf 1037945957))
 (.node 1 (.leaf 1037956021)
 (.leaf 1037970921)))
 (.node 2 (.node 1 (.leaf 1037975358)
 (.leaf 1037976557))
 (.node 1 (.leaf 1037981188)
 (.leaf 1037983000))))
 (.node 4 (.node 2 (.node 1 (.leaf 1038020044)
 (.leaf 1038021654))
 (.node 1 (.leaf 1038021655)
 (.leaf 1038030110)))
 (.node 2 (.node 1 (.leaf 1038041586)
 (.leaf 1038056686))
 (.node 1 (.leaf 1038079838)
 (.leaf 1038085072)))))
 (.node 8 (.node 4 (.node 2 (.node 1 (.leaf 1038092925)
 (.leaf 1038098963))
 (.node 1 (.leaf 1038098964)
 (.leaf 1038108527)))
 (.node 2 (.node 1 (.leaf 1038118594)
 (.leaf 1038137216))
 (.node 1 (.leaf 1038137217)
 (.leaf 1038142000))))
 (.node 4 (.node 2 (.node 1 (.leaf 1038173857)
 (.leaf 1038173858))
 (.node 1 (.leaf 1038204157)
 (.leaf 1038207681)))
 (.node 2 (.node 1 (.leaf 1038213721)
 (.leaf 1038249960))
 (.node 1 (.leaf 1038251971)
 (.leaf 1038251972))))))
 (.node 16 (.node 8 (.node 4 (.node 2 (.node 1 (.leaf 1038251973)
 (.leaf 1038253583))
 (.node 1 (.leaf 1038271098)
 (.leaf 1038289721)))
 (.node 2 (.node 1 (.leaf 1038308345)
 (.leaf 1038309351))
 (.node 1 (.leaf 1038323242)
 (.leaf 1038326062))))
 (.node 4 (.node 2 (.node 1 (.leaf 1038328475)
 (.leaf 1038328476))
 (.node 1 (.leaf 1038328477)
 (.leaf 1038337898)))
 (.node 2 (.node 1 (.leaf 1038351428)
 (.leaf 1038358676))
 (.node 1 (.leaf 1038383841)
 (.leaf 1038385855)))))
 (.node 8 (.node 4 (.node 2 (.node 1 (.leaf 1038404980)
 (.leaf 1038404981))
 (.node 1 (.leaf 1038406994)
 (.leaf 1038411355)))
 (.node 2 (.node 1 (.leaf 1038426624)
 (.leaf 1038431756))
 (.node 1 (.leaf 1038447259)
 (.leaf 1038461655))))
 (.node 4 (.node 2 (.node 1 (.leaf 1038471921)
 (.leaf 1038485512))
 (.node 1 (.leaf 1038486317)
 (.leaf 1038490308)))
 (.node 2 (.node 1 (.leaf 1038510817)
 (.leaf 1038512086))
 (.node 1 (.leaf 1038524166)
 (.leaf 1038557989)))))))
 (.node 32 (.node 16 (.node 8 (.node 4 (.node 2 (.node 1 (.leaf 1038557990)
 (.leaf 1038577113))
 (.node 1 (.leaf 1038599261)
 (.leaf 1038608874)))
 (.node 2 (.node 1 (.leaf 1038615366)
 (.leaf 1038615368))
 (.node 1 (.leaf 1038624931)
 (.leaf 1038637715))))
 (.node 4 (.node 2 (.node 1 (.leaf 1038641741)
 (.leaf 1038642546))
 (.node 1 (.leaf 1038662074)
 (.leaf 1038663181)))
 (.node 2 (.node 1 (.leaf 1038672744)
 (.leaf 1038672745))
 (.node 1 (.leaf 1038672746)
 (.leaf 1038691870)))))
 (.node 8 (.node 4 (.node 2 (.node 1 (.leaf 1038691871)
 (.leaf 1038695395))
 (.node 1 (.leaf 1038698959)
 (.leaf 1038700931)))
 (.node 2 (.node 1 (.leaf 1038710997)
 (.leaf 1038717440))
 (.node 1 (.leaf 1038720661)
 (.leaf 1038721064))))
 (.node 4 (.node 2 (.node 1 (.leaf 1038730123)
 (.leaf 1038773912))
 (.node 1 (.leaf 1038787502)
 (.leaf 1038791528)))
 (.node 2 (.node 1 (.leaf 1038798775)
 (.leaf 1038811660))
 (.node 1 (.leaf 1038816591)
 (.leaf 1038823257))))))
 (.node 16 (.node 8 (.node 4 (.node 2 (.node 1 (.leaf 1038833403)
 (.leaf 1038833404))
 (.node 1 (.leaf 1038833405)
 (.leaf 1038854444)))
 (.node 2 (.node 1 (.leaf 1038856959)
 (.leaf 1038872059))
 (.node 1 (.leaf 1038876890)
 (.leaf 1038896419))))
 (.node 4 (.node 2 (.node 1 (.leaf 1038900345)
 (.leaf 1038902257))
 (.node 1 (.leaf 1038902258)
 (.leaf 1038912323)))
 (.node 2 (.node 1 (.leaf 1038935727)
 (.leaf 1038940509))
 (.node 1 (.leaf 1038947555)
 (.leaf 1038952589)))))
 (.node 8 (.node 4 (.node 2 (.node 1 (.leaf 1038967286)
 (.leaf 1038978762))
 (.node 1 (.leaf 1038982787)
 (.leaf 1038982788)))
 (.node 2 (.node 1 (.leaf 1038994063)
 (.leaf 1039012987))
 (.node 1 (.leaf 1039015505)
 (.leaf 1039017013))))
 (.node 4 (.node 2 (.node 1 (.leaf 1039017014)
 (.leaf 1039020838))
 (.node 1 (.leaf 1039023054)
 (.leaf 1039026828)))
 (.node 2 (.node 1 (.leaf 1039033120)
 (.leaf 1039036140))
 (.node 1 (.leaf 1039036141)
 (.leaf 1039047616))))))))))
 (.node 256 (.node 128 (.node 64 (.node 32 (.node 16 (.node 8 (.node 4 (.node 2 (.node 1 (.leaf 1039053253)
 (.leaf 1039074391))
 (.node 1 (.leaf 1039074392)
 (.leaf 1039093518)))
 (.node 2 (.node 1 (.leaf 1039113651)
 (.leaf 1039154721))
 (.node 1 (.leaf 1039154723)
 (.leaf 1039155525))))
 (.node 4 (.node 2 (.node 1 (.leaf 1039157270)
 (.leaf 1039181295))
 (.node 1 (.leaf 1039185725)
 (.leaf 1039189148)))
 (.node 2 (.node 1 (.leaf 1039189149)
 (.leaf 1039194180))
 (.node 1 (.leaf 1039208273)
 (.leaf 1039239479)))))
 (.node 8 (.node 4 (.node 2 (.node 1 (.leaf 1039246526)
 (.leaf 1039261827))
 (.node 1 (.leaf 1039264646)
 (.leaf 1039275215)))
 (.node 2 (.node 1 (.leaf 1039284778)
 (.leaf 1039312561))
 (.node 1 (.leaf 1039315380)
 (.leaf 1039332593))))
 (.node 4 (.node 2 (.node 1 (.leaf 1039342155)
 (.leaf 1039342156))
 (.node 1 (.leaf 1039342158)
 (.leaf 1039345577)))
 (.node 2 (.node 1 (.leaf 1039399534)
 (.leaf 1039422486))
 (.node 1 (.leaf 1039430941)
 (.leaf 1039435773))))))
 (.node 16 (.node 8 (.node 4 (.node 2 (.node 1 (.leaf 1039435874)
 (.leaf 1039444330))
 (.node 1 (.leaf 1039473019)
 (.leaf 1039476037)))
 (.node 2 (.node 1 (.leaf 1039476038)
 (.leaf 1039476039))
 (.node 1 (.leaf 1039485601)
 (.leaf 1039504727))))
 (.node 4 (.node 2 (.node 1 (.leaf 1039504728)
 (.leaf 1039506759))
 (.node 1 (.leaf 1039509861)
 (.leaf 1039516303)))
 (.node 2 (.node 1 (.leaf 1039523015)
 (.leaf 1039560595))
 (.node 1 (.leaf 1039589435)
 (.leaf 1039590795)))))
 (.node 8 (.node 4 (.node 2 (.node 1 (.leaf 1039604385)
 (.leaf 1039609919))
 (.node 1 (.leaf 1039609920)
 (.leaf 1039615087)))
 (.node 2 (.node 1 (.leaf 1039629046)
 (.leaf 1039645152))
 (.node 1 (.leaf 1039651917)
 (.leaf 1039667298))))
 (.node 4 (.node 2 (.node 1 (.leaf 1039667299)
 (.leaf 1039667802))
 (.node 1 (.leaf 1039687431)
 (.leaf 1039687432)))
 (.node 2 (.node 1 (.leaf 1039690248)
 (.leaf 1039690249))
 (.node 1 (.leaf 1039690250)
 (.leaf 1039705550)))))))
 (.node 32 (.node 16 (.node 8 (.node 4 (.node 2 (.node 1 (.leaf 1039717630)
 (.leaf 1039729709))
 (.node 1 (.leaf 1039735346)
 (.leaf 1039740732)))
 (.node 2 (.node 1 (.leaf 1039752862)
 (.leaf 1039753869))
 (.node 1 (.leaf 1039759587)
 (.leaf 1039762928))))
 (.node 4 (.node 2 (.node 1 (.leaf 1039800223)
 (.leaf 1039810743))
 (.node 1 (.leaf 1039814267)
 (.leaf 1039820306)))
 (.node 2 (.node 1 (.leaf 1039820308)
 (.leaf 1039824905))
 (.node 1 (.leaf 1039838425)
 (.leaf 1039843559)))))
 (.node 8 (.node 4 (.node 2 (.node 1 (.leaf 1039846278)
 (.leaf 1039848996))
 (.node 1 (.leaf 1039858559)
 (.leaf 1039877684)))
 (.node 2 (.node 1 (.leaf 1039877685)
 (.leaf 1039886744))
 (.node 1 (.leaf 1039898824)
 (.leaf 1039898825))))
 (.node 4 (.node 2 (.node 1 (.leaf 1039904461)
 (.leaf 1039922311))
 (.node 1 (.leaf 1039923989)
 (.leaf 1039928136)))
 (.node 2 (.node 1 (.leaf 1039935063)
 (.leaf 1039935064))
 (.node 1 (.leaf 1039969289)
 (.leaf 1039983382))))))
 (.node 16 (.node 8 (.node 4 (.node 2 (.node 1 (.leaf 1039992440)
 (.leaf 1039996534))
 (.node 1 (.leaf 1040009553)
 (.leaf 1040011567)))
 (.node 2 (.node 1 (.leaf 1040019620)
 (.leaf 1040038343))
 (.node 1 (.leaf 1040049819)
 (.leaf 1040068946))))
 (.node 4 (.node 2 (.node 1 (.leaf 1040095117)
 (.leaf 1040101762))
 (.node 1 (.leaf 1040107197)
 (.leaf 1040118672)))
 (.node 2 (.node 1 (.leaf 1040137698)
 (.leaf 1040142347))
 (.node 1 (.leaf 1040142348)
 (.leaf 1040145449)))))
 (.node 8 (.node 4 (.node 2 (.node 1 (.leaf 1040165782)
 (.leaf 1040170616))
 (.node 1 (.leaf 1040186923)
 (.leaf 1040188029)))
 (.node 2 (.node 1 (.leaf 1040201653)
 (.leaf 1040214236))
 (.node 1 (.leaf 1040219973)
 (.leaf 1040226819))))
 (.node 4 (.node 2 (.node 1 (.leaf 1040228580)
 (.leaf 1040233362))
 (.node 1 (.leaf 1040235173)
 (.leaf 1040235174)))
 (.node 2 (.node 1 (.leaf 1040240056)
 (.leaf 1040244838))
 (.node 1 (.leaf 1040246045)
 (.leaf 1040252488))))))))
 (.node 64 (.node 32 (.node 16 (.node 8 (.node 4 (.node 2 (.node 1 (.leaf 1040254501)
 (.leaf 1040262050))
 (.node 1 (.leaf 1040262051)
 (.leaf 1040272117)))
 (.node 2 (.node 1 (.leaf 1040277754)
 (.leaf 1040281560))
 (.node 1 (.leaf 1040292552)
 (.leaf 1040293760))))
 (.node 4 (.node 2 (.node 1 (.leaf 1040296980)
 (.leaf 1040303524))
 (.node 1 (.leaf 1040306141)
 (.leaf 1040306997)))
 (.node 2 (.node 1 (.leaf 1040309866)
 (.leaf 1040319429))
 (.node 1 (.leaf 1040322147)
 (.leaf 1040322616)))))
 (.node 8 (.node 4 (.node 2 (.node 1 (.leaf 1040333773)
 (.leaf 1040333774))
 (.node 1 (.leaf 1040336643)
 (.leaf 1040337549)))
 (.node 2 (.node 1 (.leaf 1040338555)
 (.leaf 1040340467))
 (.node 1 (.leaf 1040342581)
 (.leaf 1040351138))))
 (.node 4 (.node 2 (.node 1 (.leaf 1040355164)
 (.leaf 1040360197))
 (.node 1 (.leaf 1040366539)
 (.leaf 1040367244)))
 (.node 2 (.node 1 (.leaf 1040380330)
 (.leaf 1040383501))
 (.node 1 (.leaf 1040386622)
 (.leaf 1040402477))))))
 (.node 16 (.node 8 (.node 4 (.node 2 (.node 1 (.leaf 1040405295)
 (.leaf 1040405496))
 (.node 1 (.leaf 1040410931)
 (.leaf 1040415058)))
 (.node 2 (.node 1 (.leaf 1040420796)
 (.leaf 1040425579))
 (.node 1 (.leaf 1040429404)
 (.leaf 1040430662))))
 (.node 4 (.node 2 (.node 1 (.leaf 1040434185)
 (.leaf 1040447573))
 (.node 1 (.leaf 1040450794)
 (.leaf 1040453311)))
 (.node 2 (.node 1 (.leaf 1040460408)
 (.leaf 1040474702))
 (.node 1 (.leaf 1040479634)
 (.leaf 1040479635)))))
 (.node 8 (.node 4 (.node 2 (.node 1 (.leaf 1040483510)
 (.leaf 1040496093))
 (.node 1 (.leaf 1040499717)
 (.leaf 1040501126)))
 (.node 2 (.node 1 (.leaf 1040502535)
 (.leaf 1040518742))
 (.node 1 (.leaf 1040520252)
 (.leaf 1040533962))))
 (.node 4 (.node 2 (.node 1 (.leaf 1040534596)
 (.leaf 1040536358))
 (.node 1 (.leaf 1040541391)
 (.leaf 1040544109)))
 (.node 2 (.node 1 (.leaf 1040544110)
 (.leaf 1040546928))
 (.node 1 (.leaf 1040548941)
 (.leaf 1040550451)))))))
 (.node 32 (.node 16 (.node 8 (.node 4 (.node 2 (.node 1 (.leaf 1040562783)
 (.leaf 1040577630))
 (.node 1 (.leaf 1040581455)
 (.leaf 1040586690)))
 (.node 2 (.node 1 (.leaf 1040588502)
 (.leaf 1040592730))
 (.node 1 (.leaf 1040594844)
 (.leaf 1040596756))))
 (.node 4 (.node 2 (.node 1 (.leaf 1040598015)
 (.leaf 1040608232))
 (.node 1 (.leaf 1040611332)
 (.leaf 1040612057)))
 (.node 2 (.node 1 (.leaf 1040615983)
 (.leaf 1040620664))
 (.node 1 (.leaf 1040625445)
 (.leaf 1040631989)))))
 (.node 8 (.node 4 (.node 2 (.node 1 (.leaf 1040635008)
 (.leaf 1040635009))
 (.node 1 (.leaf 1040635511)
 (.leaf 1040637827)))
 (.node 2 (.node 1 (.leaf 1040644571)
 (.leaf 1040644572))
 (.node 1 (.leaf 1040657154)
 (.leaf 1040661433))))
 (.node 4 (.node 2 (.node 1 (.leaf 1040668479)
 (.leaf 1040672530))
 (.node 1 (.leaf 1040673260)
 (.leaf 1040675172)))
 (.node 2 (.node 1 (.leaf 1040677287)
 (.leaf 1040681515))
 (.node 1 (.leaf 1040684333)
 (.leaf 1040692387))))))
 (.node 16 (.node 8 (.node 4 (.node 2 (.node 1 (.leaf 1040701949)
 (.leaf 1040701950))
 (.node 1 (.leaf 1040703862)
 (.leaf 1040706883)))
 (.node 2 (.node 1 (.leaf 1040713626)
 (.leaf 1040722585))
 (.node 1 (.leaf 1040726612)
 (.leaf 1040728021))))
 (.node 4 (.node 2 (.node 1 (.leaf 1040728726)
 (.leaf 1040730135))
 (.node 1 (.leaf 1040735671)
 (.leaf 1040740202)))
 (.node 2 (.node 1 (.leaf 1040748315)
 (.leaf 1040749764))
 (.node 1 (.leaf 1040749765)
 (.leaf 1040762448)))))
 (.node 8 (.node 4 (.node 2 (.node 1 (.leaf 1040766353)
 (.leaf 1040772162))
 (.node 1 (.leaf 1040779208)
 (.leaf 1040781976)))
 (.node 2 (.node 1 (.leaf 1040782278)
 (.leaf 1040782983))
 (.node 1 (.leaf 1040784241)
 (.leaf 1040787262))))
 (.node 4 (.node 2 (.node 1 (.leaf 1040788016)
 (.leaf 1040788017))
 (.node 1 (.leaf 1040792799)
 (.leaf 1040795666)))
 (.node 2 (.node 1 (.leaf 1040795667)
 (.leaf 1040796875))
 (.node 1 (.leaf 1040821034)
 (.leaf 1040821739)))))))))
 (.node 128 (.node 64 (.node 32 (.node 16 (.node 8 (.node 4 (.node 2 (.node 1 (.leaf 1040828282)
 (.leaf 1040830798))
 (.node 1 (.leaf 1040832812)
 (.leaf 1040835831)))
 (.node 2 (.node 1 (.leaf 1040835832)
 (.leaf 1040840136))
 (.node 1 (.leaf 1040841570)
 (.leaf 1040842525))))
 (.node 4 (.node 2 (.node 1 (.leaf 1040842526)
 (.leaf 1040845395))
 (.node 1 (.leaf 1040858481)
 (.leaf 1040862256)))
 (.node 2 (.node 1 (.leaf 1040864521)
 (.leaf 1040871315))
 (.node 1 (.leaf 1040874084)
 (.leaf 1040879620)))))
 (.node 8 (.node 4 (.node 2 (.node 1 (.leaf 1040882640)
 (.leaf 1040883395))
 (.node 1 (.leaf 1040883646)
 (.leaf 1040883647)))
 (.node 2 (.node 1 (.leaf 1040884029)
 (.leaf 1040887472))
 (.node 1 (.leaf 1040889384)
 (.leaf 1040902773))))
 (.node 4 (.node 2 (.node 1 (.leaf 1040914048)
 (.leaf 1040920892))
 (.node 1 (.leaf 1040921898)
 (.leaf 1040923912)))
 (.node 2 (.node 1 (.leaf 1040926429)
 (.leaf 1040928442))
 (.node 1 (.leaf 1040929549)
 (.leaf 1040931462))))))
 (.node 16 (.node 8 (.node 4 (.node 2 (.node 1 (.leaf 1040933978)
 (.leaf 1040936244))
 (.node 1 (.leaf 1040938206)
 (.leaf 1040948575)))
 (.node 2 (.node 1 (.leaf 1040956326)
 (.leaf 1040960553))
 (.node 1 (.leaf 1040970469)
 (.leaf 1040971727))))
 (.node 4 (.node 2 (.node 1 (.leaf 1040977263)
 (.leaf 1040979276))
 (.node 1 (.leaf 1040979277)
 (.leaf 1040983103)))
 (.node 2 (.node 1 (.leaf 1040998402)
 (.leaf 1040998403))
 (.node 1 (.leaf 1041001187)
 (.leaf 1041001674)))))
 (.node 8 (.node 4 (.node 2 (.node 1 (.leaf 1041009878)
 (.leaf 1041020046))
 (.node 1 (.leaf 1041026085)
 (.leaf 1041027092)))
 (.node 2 (.node 1 (.leaf 1041032427)
 (.leaf 1041036655))
 (.node 1 (.leaf 1041047225)
 (.leaf 1041048138))))
 (.node 4 (.node 2 (.node 1 (.leaf 1041055781)
 (.leaf 1041065343))
 (.node 1 (.leaf 1041069622)
 (.leaf 1041070477)))
 (.node 2 (.node 1 (.leaf 1041074907)
 (.leaf 1041075662))
 (.node 1 (.leaf 1041076820)
 (.leaf 1041079779)))))))
 (.node 32 (.node 16 (.node 8 (.node 4 (.node 2 (.node 1 (.leaf 1041081281)
 (.leaf 1041082456))
 (.node 1 (.leaf 1041085275)
 (.leaf 1041094033)))
 (.node 2 (.node 1 (.leaf 1041100073)
 (.leaf 1041110139))
 (.node 1 (.leaf 1041114116)
 (.leaf 1041116984))))
 (.node 4 (.node 2 (.node 1 (.leaf 1041119199)
 (.leaf 1041121212))
 (.node 1 (.leaf 1041122722)
 (.leaf 1041123728)))
 (.node 2 (.node 1 (.leaf 1041123729)
 (.leaf 1041124232))
 (.node 1 (.leaf 1041130372)
 (.leaf 1041132284)))))
 (.node 8 (.node 4 (.node 2 (.node 1 (.leaf 1041160471)
 (.leaf 1041168776))
 (.node 1 (.leaf 1041170537)
 (.leaf 1041170538)))
 (.node 2 (.node 1 (.leaf 1041171796)
 (.leaf 1041172550))
 (.node 1 (.leaf 1041172551)
 (.leaf 1041206725))))
 (.node 4 (.node 2 (.node 1 (.leaf 1041210249)
 (.leaf 1041210702))
 (.node 1 (.leaf 1041210802)
 (.leaf 1041218352)))
 (.node 2 (.node 1 (.leaf 1041218353)
 (.leaf 1041219862))
 (.node 1 (.leaf 1041220868)
 (.leaf 1041220869))))))
 (.node 16 (.node 8 (.node 4 (.node 2 (.node 1 (.leaf 1041221372)
 (.leaf 1041223315))
 (.node 1 (.leaf 1041224090)
 (.leaf 1041227914)))
 (.node 2 (.node 1 (.leaf 1041227915)
 (.leaf 1041232193))
 (.node 1 (.leaf 1041234289)
 (.leaf 1041237477))))
 (.node 4 (.node 2 (.node 1 (.leaf 1041237478)
 (.leaf 1041247041))
 (.node 1 (.leaf 1041256605)
 (.leaf 1041260430)))
 (.node 2 (.node 1 (.leaf 1041266167)
 (.leaf 1041266168))
 (.node 1 (.leaf 1041267929)
 (.leaf 1041269942)))))
 (.node 8 (.node 4 (.node 2 (.node 1 (.leaf 1041270193)
 (.leaf 1041270194))
 (.node 1 (.leaf 1041273179)
 (.leaf 1041279757)))
 (.node 2 (.node 1 (.leaf 1041282105)
 (.leaf 1041285293))
 (.node 1 (.leaf 1041299386)
 (.leaf 1041313982))))
 (.node 4 (.node 2 (.node 1 (.leaf 1041315996)
 (.leaf 1041317506))
 (.node 1 (.leaf 1041319016)
 (.leaf 1041323545)))
 (.node 2 (.node 1 (.leaf 1041328377)
 (.leaf 1041344583))
 (.node 1 (.leaf 1041355506)
 (.leaf 1041357971))))))))
 (.node 64 (.node 32 (.node 16 (.node 8 (.node 4 (.node 2 (.node 1 (.leaf 1041361797)
 (.leaf 1041365824))
 (.node 1 (.leaf 1041367082)
 (.leaf 1041367837)))
 (.node 2 (.node 1 (.leaf 1041367838)
 (.leaf 1041371360))
 (.node 1 (.leaf 1041376796)
 (.leaf 1041384891))))
 (.node 4 (.node 2 (.node 1 (.leaf 1041386509)
 (.leaf 1041387298))
 (.node 1 (.leaf 1041390486)
 (.leaf 1041404478)))
 (.node 2 (.node 1 (.leaf 1041404831)
 (.leaf 1041409613))
 (.node 1 (.leaf 1041412129)
 (.leaf 1041415652)))))
 (.node 8 (.node 4 (.node 2 (.node 1 (.leaf 1041416659)
 (.leaf 1041417161))
 (.node 1 (.leaf 1041417162)
 (.leaf 1041417163)))
 (.node 2 (.node 1 (.leaf 1041425584)
 (.leaf 1041426423))
 (.node 1 (.leaf 1041428738)
 (.leaf 1041432931))))
 (.node 4 (.node 2 (.node 1 (.leaf 1041436187)
 (.leaf 1041438301))
 (.node 1 (.leaf 1041438302)
 (.leaf 1041462460)))
 (.node 2 (.node 1 (.leaf 1041462461)
 (.leaf 1041465078))
 (.node 1 (.leaf 1041466236)
 (.leaf 1041466488))))))
 (.node 16 (.node 8 (.node 4 (.node 2 (.node 1 (.leaf 1041469540)
 (.leaf 1041476553))
 (.node 1 (.leaf 1041476554)
 (.leaf 1041487627)))
 (.node 2 (.node 1 (.leaf 1041488507)
 (.leaf 1041489036))
 (.node 1 (.leaf 1041495678)
 (.leaf 1041512792))))
 (.node 4 (.node 2 (.node 1 (.leaf 1041515309)
 (.leaf 1041515813))
 (.node 1 (.leaf 1041518631)
 (.leaf 1041524066)))
 (.node 2 (.node 1 (.leaf 1041535542)
 (.leaf 1041539770))
 (.node 1 (.leaf 1041545547)
 (.leaf 1041553057)))))
 (.node 8 (.node 4 (.node 2 (.node 1 (.leaf 1041563124)
 (.leaf 1041565138))
 (.node 1 (.leaf 1041565389)
 (.leaf 1041572184)))
 (.node 2 (.node 1 (.leaf 1041575707)
 (.leaf 1041581747))
 (.node 1 (.leaf 1041590504)
 (.leaf 1041598960))))
 (.node 4 (.node 2 (.node 1 (.leaf 1041602131)
 (.leaf 1041604396))
 (.node 1 (.leaf 1041610436)
 (.leaf 1041610437)))
 (.node 2 (.node 1 (.leaf 1041614966)
 (.leaf 1041619999))
 (.node 1 (.leaf 1041628555)
 (.leaf 1041639124)))))))
 (.node 32 (.node 16 (.node 8 (.node 4 (.node 2 (.node 1 (.leaf 1041639125)
 (.leaf 1041641239))
 (.node 1 (.leaf 1041642899)
 (.leaf 1041652513)))
 (.node 2 (.node 1 (.leaf 1041658871)
 (.leaf 1041661438))
 (.node 1 (.leaf 1041663787)
 (.leaf 1041664543))))
 (.node 4 (.node 2 (.node 1 (.leaf 1041667814)
 (.leaf 1041672596))
 (.node 1 (.leaf 1041673653)
 (.leaf 1041679289)))
 (.node 2 (.node 1 (.leaf 1041680296)
 (.leaf 1041686939))
 (.node 1 (.leaf 1041690916)
 (.leaf 1041693314)))))
 (.node 8 (.node 4 (.node 2 (.node 1 (.leaf 1041696503)
 (.leaf 1041699371))
 (.node 1 (.leaf 1041706067)
 (.leaf 1041719454)))
 (.node 2 (.node 1 (.leaf 1041729848)
 (.leaf 1041732842))
 (.node 1 (.leaf 1041737774)
 (.leaf 1041739536))))
 (.node 4 (.node 2 (.node 1 (.leaf 1041742708)
 (.leaf 1041744318))
 (.node 1 (.leaf 1041745391)
 (.leaf 1041758411)))
 (.node 2 (.node 1 (.leaf 1041759619)
 (.leaf 1041764450))
 (.node 1 (.leaf 1041764451)
 (.leaf 1041769819))))))
 (.node 16 (.node 8 (.node 4 (.node 2 (.node 1 (.leaf 1041791609)
 (.leaf 1041791856))
 (.node 1 (.leaf 1041792133)
 (.leaf 1041792134)))
 (.node 2 (.node 1 (.leaf 1041794498)
 (.leaf 1041796914))
 (.node 1 (.leaf 1041811761)
 (.leaf 1041812044))))
 (.node 4 (.node 2 (.node 1 (.leaf 1041813172)
 (.leaf 1041829379))
 (.node 1 (.leaf 1041839947)
 (.leaf 1041839948)))
 (.node 2 (.node 1 (.leaf 1041846643)
 (.leaf 1041866724))
 (.node 1 (.leaf 1041867007)
 (.leaf 1041878200)))))
 (.node 8 (.node 4 (.node 2 (.node 1 (.leaf 1041892796)
 (.leaf 1041897326))
 (.node 1 (.leaf 1041897327)
 (.leaf 1041911821)))
 (.node 2 (.node 1 (.leaf 1041913935)
 (.leaf 1041920277))
 (.node 1 (.leaf 1041932390)
 (.leaf 1041935578))))
 (.node 4 (.node 2 (.node 1 (.leaf 1041940611)
 (.leaf 1041945644))
 (.node 1 (.leaf 1041948815)
 (.leaf 1041949873)))
 (.node 2 (.node 1 (.leaf 1041950476)
 (.leaf 1041960442))
 (.node 1 (.leaf 1041973829)
 (.leaf 1041973830)))))))))))
 (.node 512 (.node 256 (.node 128 (.node 64 (.node 32 (.node 16 (.node 8 (.node 4 (.node 2 (.node 1 (.leaf 1041973831)
 (.leaf 1041980876))
 (.node 1 (.leaf 1041988929)
 (.leaf 1041992855)))
 (.node 2 (.node 1 (.leaf 1041992956)
 (.leaf 1041993661))
 (.node 1 (.leaf 1041998492)
 (.leaf 1042002520))))
 (.node 4 (.node 2 (.node 1 (.leaf 1042003626)
 (.leaf 1042008685))
 (.node 1 (.leaf 1042010330)
 (.leaf 1042016625)))
 (.node 2 (.node 1 (.leaf 1042021746)
 (.leaf 1042027383))
 (.node 1 (.leaf 1042040771)
 (.leaf 1042041275)))))
 (.node 8 (.node 4 (.node 2 (.node 1 (.leaf 1042051341)
 (.leaf 1042052890))
 (.node 1 (.leaf 1042066440)
 (.leaf 1042068957)))
 (.node 2 (.node 1 (.leaf 1042072480)
 (.leaf 1042079024))
 (.node 1 (.leaf 1042080634)
 (.leaf 1042080935))))
 (.node 4 (.node 2 (.node 1 (.leaf 1042087629)
 (.leaf 1042090398))
 (.node 1 (.leaf 1042094676)
 (.leaf 1042100666)))
 (.node 2 (.node 1 (.leaf 1042101019)
 (.leaf 1042104189))
 (.node 1 (.leaf 1042106705)
 (.leaf 1042107712))))))
 (.node 16 (.node 8 (.node 4 (.node 2 (.node 1 (.leaf 1042109927)
 (.leaf 1042115060))
 (.node 1 (.leaf 1042126838)
 (.leaf 1042126839)))
 (.node 2 (.node 1 (.leaf 1042131670)
 (.leaf 1042136401))
 (.node 1 (.leaf 1042155528)
 (.leaf 1042157037))))
 (.node 4 (.node 2 (.node 1 (.leaf 1042157038)
 (.leaf 1042161970))
 (.node 1 (.leaf 1042163631)
 (.leaf 1042174654)))
 (.node 2 (.node 1 (.leaf 1042181197)
 (.leaf 1042188041))
 (.node 1 (.leaf 1042188042)
 (.leaf 1042189169)))))
 (.node 8 (.node 4 (.node 2 (.node 1 (.leaf 1042197806)
 (.leaf 1042212906))
 (.node 1 (.leaf 1042216227)
 (.leaf 1042216228)))
 (.node 2 (.node 1 (.leaf 1042227502)
 (.leaf 1042235555))
 (.node 1 (.leaf 1042239903)
 (.leaf 1042241594))))
 (.node 4 (.node 2 (.node 1 (.leaf 1042241595)
 (.leaf 1042245218))
 (.node 1 (.leaf 1042256392)
 (.leaf 1042262734)))
 (.node 2 (.node 1 (.leaf 1042267717)
 (.leaf 1042267767))
 (.node 1 (.leaf 1042268370)
 (.leaf 1042271039)))))))
 (.node 32 (.node 16 (.node 8 (.node 4 (.node 2 (.node 1 (.leaf 1042280349)
 (.leaf 1042288242))
 (.node 1 (.leaf 1042289913)
 (.leaf 1042318099)))
 (.node 2 (.node 1 (.leaf 1042322528)
 (.leaf 1042337224))
 (.node 1 (.leaf 1042342006)
 (.leaf 1042354237))))
 (.node 4 (.node 2 (.node 1 (.leaf 1042356351)
 (.leaf 1042364202))
 (.node 1 (.leaf 1042368430)
 (.leaf 1042373463)))
 (.node 2 (.node 1 (.leaf 1042373564)
 (.leaf 1042382170))
 (.node 1 (.leaf 1042406480)
 (.leaf 1042411917)))))
 (.node 8 (.node 4 (.node 2 (.node 1 (.leaf 1042413729)
 (.leaf 1042427092))
 (.node 1 (.leaf 1042428828)
 (.leaf 1042433258)))
 (.node 2 (.node 1 (.leaf 1042442418)
 (.leaf 1042450194))
 (.node 1 (.leaf 1042450974)
 (.leaf 1042452988))))
 (.node 4 (.node 2 (.node 1 (.leaf 1042457517)
 (.leaf 1042471107))
 (.node 1 (.leaf 1042482583)
 (.leaf 1042484193)))
 (.node 2 (.node 1 (.leaf 1042509359)
 (.leaf 1042522747))
 (.node 1 (.leaf 1042528485)
 (.leaf 1042539558))))))
 (.node 16 (.node 8 (.node 4 (.node 2 (.node 1 (.leaf 1042545850)
 (.leaf 1042549524))
 (.node 1 (.leaf 1042554456)
 (.leaf 1042557174)))
 (.node 2 (.node 1 (.leaf 1042563968)
 (.leaf 1042565730))
 (.node 1 (.leaf 1042571368)
 (.leaf 1042577639))))
 (.node 4 (.node 2 (.node 1 (.leaf 1042578615)
 (.leaf 1042579822))
 (.node 1 (.leaf 1042579823)
 (.leaf 1042585863)))
 (.node 2 (.node 1 (.leaf 1042594923)
 (.leaf 1042614552))
 (.node 1 (.leaf 1042622102)
 (.leaf 1042625484)))))
 (.node 8 (.node 4 (.node 2 (.node 1 (.leaf 1042633024)
 (.leaf 1042634181))
 (.node 1 (.leaf 1042643240)
 (.leaf 1042643241)))
 (.node 2 (.node 1 (.leaf 1042650288)
 (.leaf 1042653812))
 (.node 1 (.leaf 1042666494)
 (.leaf 1042670017))))
 (.node 4 (.node 2 (.node 1 (.leaf 1042670420)
 (.leaf 1042678473))
 (.node 1 (.leaf 1042689747)
 (.leaf 1042695787)))
 (.node 2 (.node 1 (.leaf 1042695837)
 (.leaf 1042696794))
 (.node 1 (.leaf 1042700619)
 (.leaf 1042700620))))))))
 (.node 64 (.node 32 (.node 16 (.node 8 (.node 4 (.node 2 (.node 1 (.leaf 1042705653)
 (.leaf 1042707504))
 (.node 1 (.leaf 1042720752)
 (.leaf 1042721174)))
 (.node 2 (.node 1 (.leaf 1042722513)
 (.leaf 1042723570))
 (.node 1 (.leaf 1042738871)
 (.leaf 1042748384))))
 (.node 4 (.node 2 (.node 1 (.leaf 1042750950)
 (.leaf 1042761017))
 (.node 1 (.leaf 1042777123)
 (.leaf 1042777475)))
 (.node 2 (.node 1 (.leaf 1042778533)
 (.leaf 1042780469))
 (.node 1 (.leaf 1042783666)
 (.leaf 1042791215)))))
 (.node 8 (.node 4 (.node 2 (.node 1 (.leaf 1042791216)
 (.leaf 1042796450))
 (.node 1 (.leaf 1042806316)
 (.leaf 1042810593)))
 (.node 2 (.node 1 (.leaf 1042810594)
 (.leaf 1042814469))
 (.node 1 (.leaf 1042815375)
 (.leaf 1042815376))))
 (.node 4 (.node 2 (.node 1 (.leaf 1042821750)
 (.leaf 1042832438))
 (.node 1 (.leaf 1042844064)
 (.leaf 1042844065)))
 (.node 2 (.node 1 (.leaf 1042860674)
 (.leaf 1042863190))
 (.node 1 (.leaf 1042871545)
 (.leaf 1042872753))))))
 (.node 16 (.node 8 (.node 4 (.node 2 (.node 1 (.leaf 1042872754)
 (.leaf 1042873357))
 (.node 1 (.leaf 1042882315)
 (.leaf 1042882317)))
 (.node 2 (.node 1 (.leaf 1042891879)
 (.leaf 1042892685))
 (.node 1 (.leaf 1042896912)
 (.leaf 1042896913))))
 (.node 4 (.node 2 (.node 1 (.leaf 1042911005)
 (.leaf 1042922078))
 (.node 1 (.leaf 1042928621)
 (.leaf 1042928622)))
 (.node 2 (.node 1 (.leaf 1042930131)
 (.leaf 1042930132))
 (.node 1 (.leaf 1042937781)
 (.leaf 1042944476)))))
 (.node 8 (.node 4 (.node 2 (.node 1 (.leaf 1042951170)
 (.leaf 1042968384))
 (.node 1 (.leaf 1042972410)
 (.leaf 1042973165)))
 (.node 2 (.node 1 (.leaf 1042974749)
 (.leaf 1042982602))
 (.node 1 (.leaf 1042985698)
 (.leaf 1042991335))))
 (.node 4 (.node 2 (.node 1 (.leaf 1042995796)
 (.leaf 1043001534))
 (.node 1 (.leaf 1043004723)
 (.leaf 1043007944)))
 (.node 2 (.node 1 (.leaf 1043016198)
 (.leaf 1043018463))
 (.node 1 (.leaf 1043020224)
 (.leaf 1043044887)))))))
 (.node 32 (.node 16 (.node 8 (.node 4 (.node 2 (.node 1 (.leaf 1043044888)
 (.leaf 1043052287))
 (.node 1 (.leaf 1043061799)
 (.leaf 1043064014)))
 (.node 2 (.node 1 (.leaf 1043064969)
 (.leaf 1043073073))
 (.node 1 (.leaf 1043073074)
 (.leaf 1043083139))))
 (.node 4 (.node 2 (.node 1 (.leaf 1043090563)
 (.leaf 1043093206))
 (.node 1 (.leaf 1043104078)
 (.leaf 1043121392)))
 (.node 2 (.node 1 (.leaf 1043124265)
 (.leaf 1043130955))
 (.node 1 (.leaf 1043143537)
 (.leaf 1043144946)))))
 (.node 8 (.node 4 (.node 2 (.node 1 (.leaf 1043151993)
 (.leaf 1043159643))
 (.node 1 (.leaf 1043159644)
 (.leaf 1043163267)))
 (.node 2 (.node 1 (.leaf 1043163268)
 (.leaf 1043169206))
 (.node 1 (.leaf 1043176796)
 (.leaf 1043178769))))
 (.node 4 (.node 2 (.node 1 (.leaf 1043178770)
 (.leaf 1043183561))
 (.node 1 (.leaf 1043192158)
 (.leaf 1043203533)))
 (.node 2 (.node 1 (.leaf 1043205193)
 (.leaf 1043214002))
 (.node 1 (.leaf 1043222457)
 (.leaf 1043223061))))))
 (.node 16 (.node 8 (.node 4 (.node 2 (.node 1 (.leaf 1043232323)
 (.leaf 1043236148))
 (.node 1 (.leaf 1043238664)
 (.leaf 1043245073)))
 (.node 2 (.node 1 (.leaf 1043245710)
 (.leaf 1043245712))
 (.node 1 (.leaf 1043249234)
 (.leaf 1043274399))))
 (.node 4 (.node 2 (.node 1 (.leaf 1043274400)
 (.leaf 1043274401))
 (.node 1 (.leaf 1043281647)
 (.leaf 1043281648)))
 (.node 2 (.node 1 (.leaf 1043282452)
 (.leaf 1043285875))
 (.node 1 (.leaf 1043298558)
 (.leaf 1043301177)))))
 (.node 8 (.node 4 (.node 2 (.node 1 (.leaf 1043305957)
 (.leaf 1043312652))
 (.node 1 (.leaf 1043313658)
 (.leaf 1043328507)))
 (.node 2 (.node 1 (.leaf 1043334798)
 (.leaf 1043338153))
 (.node 1 (.leaf 1043339026)
 (.leaf 1043340838))))
 (.node 4 (.node 2 (.node 1 (.leaf 1043341340)
 (.leaf 1043343890))
 (.node 1 (.leaf 1043358453)
 (.leaf 1043365248)))
 (.node 2 (.node 1 (.leaf 1043366204)
 (.leaf 1043366205))
 (.node 1 (.leaf 1043370030)
 (.leaf 1043390163)))))))))
 (.node 128 (.node 64 (.node 32 (.node 16 (.node 8 (.node 4 (.node 2 (.node 1 (.leaf 1043395196)
 (.leaf 1043398820))
 (.node 1 (.leaf 1043400027)
 (.leaf 1043400028)))
 (.node 2 (.node 1 (.leaf 1043401906)
 (.leaf 1043417845))
 (.node 1 (.leaf 1043418347)
 (.leaf 1043419355))))
 (.node 4 (.node 2 (.node 1 (.leaf 1043419757)
 (.leaf 1043425395))
 (.node 1 (.leaf 1043427408)
 (.leaf 1043435460)))
 (.node 2 (.node 1 (.leaf 1043446533)
 (.leaf 1043446534))
 (.node 1 (.leaf 1043451819)
 (.leaf 1043455594)))))
 (.node 8 (.node 4 (.node 2 (.node 1 (.leaf 1043456097)
 (.leaf 1043458615))
 (.node 1 (.leaf 1043475225)
 (.leaf 1043476934)))
 (.node 2 (.node 1 (.leaf 1043478243)
 (.leaf 1043484785))
 (.node 1 (.leaf 1043486698)
 (.leaf 1043494450))))
 (.node 4 (.node 2 (.node 1 (.leaf 1043500086)
 (.leaf 1043501345))
 (.node 1 (.leaf 1043503912)
 (.leaf 1043503913)))
 (.node 2 (.node 1 (.leaf 1043507838)
 (.leaf 1043508442))
 (.node 1 (.leaf 1043513475)
 (.leaf 1043513476))))))
 (.node 16 (.node 8 (.node 4 (.node 2 (.node 1 (.leaf 1043515992)
 (.leaf 1043531092))
 (.node 1 (.leaf 1043561291)
 (.leaf 1043574578)))
 (.node 2 (.node 1 (.leaf 1043575131)
 (.leaf 1043576390))
 (.node 1 (.leaf 1043580416)
 (.leaf 1043580417))))
 (.node 4 (.node 2 (.node 1 (.leaf 1043593381)
 (.leaf 1043594509))
 (.node 1 (.leaf 1043598032)
 (.leaf 1043609105)))
 (.node 2 (.node 1 (.leaf 1043609106)
 (.leaf 1043623199))
 (.node 1 (.leaf 1043630446)
 (.leaf 1043636787)))))
 (.node 8 (.node 4 (.node 2 (.node 1 (.leaf 1043636788)
 (.leaf 1043636789))
 (.node 1 (.leaf 1043637937)
 (.leaf 1043642425)))
 (.node 2 (.node 1 (.leaf 1043657927)
 (.leaf 1043664410))
 (.node 1 (.leaf 1043666483)
 (.leaf 1043671245))))
 (.node 4 (.node 2 (.node 1 (.leaf 1043676047)
 (.leaf 1043691749))
 (.node 1 (.leaf 1043691750)
 (.leaf 1043698444)))
 (.node 2 (.node 1 (.leaf 1043704434)
 (.leaf 1043707251))
 (.node 1 (.leaf 1043709084)
 (.leaf 1043709718)))))))
 (.node 32 (.node 16 (.node 8 (.node 4 (.node 2 (.node 1 (.leaf 1043723862)
 (.leaf 1043727687))
 (.node 1 (.leaf 1043731492)
 (.leaf 1043731493)))
 (.node 2 (.node 1 (.leaf 1043733424)
 (.leaf 1043747014))
 (.node 1 (.leaf 1043747768)
 (.leaf 1043753053))))
 (.node 4 (.node 2 (.node 1 (.leaf 1043754464)
 (.leaf 1043757332))
 (.node 1 (.leaf 1043757584)
 (.leaf 1043760100)))
 (.node 2 (.node 1 (.leaf 1043766442)
 (.leaf 1043772684))
 (.node 1 (.leaf 1043777716)
 (.leaf 1043777717)))))
 (.node 8 (.node 4 (.node 2 (.node 1 (.leaf 1043790802)
 (.leaf 1043791809))
 (.node 1 (.leaf 1043791810)
 (.leaf 1043794628)))
 (.node 2 (.node 1 (.leaf 1043795584)
 (.leaf 1043799315))
 (.node 1 (.leaf 1043812948)
 (.leaf 1043815465))))
 (.node 4 (.node 2 (.node 1 (.leaf 1043817388)
 (.leaf 1043821757))
 (.node 1 (.leaf 1043828451)
 (.leaf 1043829054)))
 (.node 2 (.node 1 (.leaf 1043848180)
 (.leaf 1043848181))
 (.node 1 (.leaf 1043853254)
 (.leaf 1043857744))))))
 (.node 16 (.node 8 (.node 4 (.node 2 (.node 1 (.leaf 1043861568)
 (.leaf 1043870831))
 (.node 1 (.leaf 1043873549)
 (.leaf 1043874957)))
 (.node 2 (.node 1 (.leaf 1043878379)
 (.leaf 1043883413))
 (.node 1 (.leaf 1043903546)
 (.leaf 1043911598))))
 (.node 4 (.node 2 (.node 1 (.leaf 1043911599)
 (.leaf 1043921866))
 (.node 1 (.leaf 1043929466)
 (.leaf 1043934248)))
 (.node 2 (.node 1 (.leaf 1043938552)
 (.leaf 1043975016))
 (.node 1 (.leaf 1043978792)
 (.leaf 1043982062)))))
 (.node 8 (.node 4 (.node 2 (.node 1 (.leaf 1043982063)
 (.leaf 1043984680))
 (.node 1 (.leaf 1043991625)
 (.leaf 1044006726)))
 (.node 2 (.node 1 (.leaf 1044027865)
 (.leaf 1044038434))
 (.node 1 (.leaf 1044039441)
 (.leaf 1044042661))))
 (.node 4 (.node 2 (.node 1 (.leaf 1044044541)
 (.leaf 1044046185))
 (.node 1 (.leaf 1044046186)
 (.leaf 1044049004)))
 (.node 2 (.node 1 (.leaf 1044055798)
 (.leaf 1044056872))
 (.node 1 (.leaf 1044072434)
 (.leaf 1044081467))))))))
 (.node 64 (.node 32 (.node 16 (.node 8 (.node 4 (.node 2 (.node 1 (.leaf 1044085645)
 (.leaf 1044090578))
 (.node 1 (.leaf 1044101852)
 (.leaf 1044106382)))
 (.node 2 (.node 1 (.leaf 1044110308)
 (.leaf 1044115944))
 (.node 1 (.leaf 1044115945)
 (.leaf 1044117706))))
 (.node 4 (.node 2 (.node 1 (.leaf 1044119971)
 (.leaf 1044119972))
 (.node 1 (.leaf 1044130038)
 (.leaf 1044135071)))
 (.node 2 (.node 1 (.leaf 1044135072)
 (.leaf 1044136028))
 (.node 1 (.leaf 1044137366)
 (.leaf 1044149415)))))
 (.node 8 (.node 4 (.node 2 (.node 1 (.leaf 1044156109)
 (.leaf 1044165270))
 (.node 1 (.leaf 1044165271)
 (.leaf 1044169498)))
 (.node 2 (.node 1 (.leaf 1044171159)
 (.leaf 1044174431))
 (.node 1 (.leaf 1044180772)
 (.leaf 1044182887))))
 (.node 4 (.node 2 (.node 1 (.leaf 1044184145)
 (.leaf 1044192449))
 (.node 1 (.leaf 1044192450)
 (.leaf 1044199622)))
 (.node 2 (.node 1 (.leaf 1044200502)
 (.leaf 1044206164))
 (.node 1 (.leaf 1044218119)
 (.leaf 1044228688))))))
 (.node 16 (.node 8 (.node 4 (.node 2 (.node 1 (.leaf 1044230700)
 (.leaf 1044230701))
 (.node 1 (.leaf 1044232714)
 (.leaf 1044238552)))
 (.node 2 (.node 1 (.leaf 1044238553)
 (.leaf 1044248066))
 (.node 1 (.leaf 1044249827)
 (.leaf 1044249828))))
 (.node 4 (.node 2 (.node 1 (.leaf 1044255867)
 (.leaf 1044279422))
 (.node 1 (.leaf 1044281033)
 (.leaf 1044283045)))
 (.node 2 (.node 1 (.leaf 1044292106)
 (.leaf 1044296132))
 (.node 1 (.leaf 1044302676)
 (.leaf 1044306903)))))
 (.node 8 (.node 4 (.node 2 (.node 1 (.leaf 1044316767)
 (.leaf 1044316768))
 (.node 1 (.leaf 1044316769)
 (.leaf 1044321549)))
 (.node 2 (.node 1 (.leaf 1044329855)
 (.leaf 1044330156))
 (.node 1 (.leaf 1044335895)
 (.leaf 1044341934))))
 (.node 4 (.node 2 (.node 1 (.leaf 1044344199)
 (.leaf 1044352469))
 (.node 1 (.leaf 1044355524)
 (.leaf 1044361564)))
 (.node 2 (.node 1 (.leaf 1044364584)
 (.leaf 1044371378))
 (.node 1 (.leaf 1044380890)
 (.leaf 1044380891)))))))
 (.node 32 (.node 16 (.node 8 (.node 4 (.node 2 (.node 1 (.leaf 1044383709)
 (.leaf 1044383710))
 (.node 1 (.leaf 1044390404)
 (.leaf 1044406257)))
 (.node 2 (.node 1 (.leaf 1044416263)
 (.leaf 1044418941))
 (.node 1 (.leaf 1044421961)
 (.leaf 1044421962))))
 (.node 4 (.node 2 (.node 1 (.leaf 1044426995)
 (.leaf 1044443602))
 (.node 1 (.leaf 1044446422)
 (.leaf 1044450650)))
 (.node 2 (.node 1 (.leaf 1044462227)
 (.leaf 1044464039))
 (.node 1 (.leaf 1044482359)
 (.leaf 1044482360)))))
 (.node 8 (.node 4 (.node 2 (.node 1 (.leaf 1044484613)
 (.leaf 1044488400))
 (.node 1 (.leaf 1044490815)
 (.leaf 1044492425)))
 (.node 2 (.node 1 (.leaf 1044492426)
 (.leaf 1044493683))
 (.node 1 (.leaf 1044511954)
 (.leaf 1044517591))))
 (.node 4 (.node 2 (.node 1 (.leaf 1044517592)
 (.leaf 1044522948))
 (.node 1 (.leaf 1044524639)
 (.leaf 1044544367)))
 (.node 2 (.node 1 (.leaf 1044546281)
 (.leaf 1044557858))
 (.node 1 (.leaf 1044565407)
 (.leaf 1044571144))))))
 (.node 16 (.node 8 (.node 4 (.node 2 (.node 1 (.leaf 1044578619)
 (.leaf 1044584532))
 (.node 1 (.leaf 1044584533)
 (.leaf 1044588056)))
 (.node 2 (.node 1 (.leaf 1044599834)
 (.leaf 1044611309))
 (.node 1 (.leaf 1044613222)
 (.leaf 1044623289))))
 (.node 4 (.node 2 (.node 1 (.leaf 1044632347)
 (.leaf 1044633354))
 (.node 1 (.leaf 1044636816)
 (.leaf 1044641911)))
 (.node 2 (.node 1 (.leaf 1044646190)
 (.leaf 1044648655))
 (.node 1 (.leaf 1044651473)
 (.leaf 1044651474)))))
 (.node 8 (.node 4 (.node 2 (.node 1 (.leaf 1044656171)
 (.leaf 1044683686))
 (.node 1 (.leaf 1044688720)
 (.leaf 1044689664)))
 (.node 2 (.node 1 (.leaf 1044695263)
 (.leaf 1044699289))
 (.node 1 (.leaf 1044708852)
 (.leaf 1044717005))))
 (.node 4 (.node 2 (.node 1 (.leaf 1044718415)
 (.leaf 1044719119))
 (.node 1 (.leaf 1044758579)
 (.leaf 1044774082)))
 (.node 2 (.node 1 (.leaf 1044785356)
 (.leaf 1044785357))
 (.node 1 (.leaf 1044804482)
 (.leaf 1044804483))))))))))
 (.node 256 (.node 128 (.node 64 (.node 32 (.node 16 (.node 8 (.node 4 (.node 2 (.node 1 (.leaf 1044812132)
 (.leaf 1044812133))
 (.node 1 (.leaf 1044820589)
 (.leaf 1044833170)))
 (.node 2 (.node 1 (.leaf 1044834681)
 (.leaf 1044834682))
 (.node 1 (.leaf 1044842734)
 (.leaf 1044844748))))
 (.node 4 (.node 2 (.node 1 (.leaf 1044847364)
 (.leaf 1044852296))
 (.node 1 (.leaf 1044852297)
 (.leaf 1044852298)))
 (.node 2 (.node 1 (.leaf 1044853706)
 (.leaf 1044853707))
 (.node 1 (.leaf 1044858337)
 (.leaf 1044880985)))))
 (.node 8 (.node 4 (.node 2 (.node 1 (.leaf 1044880986)
 (.leaf 1044887025))
 (.node 1 (.leaf 1044905145)
 (.leaf 1044905850)))
 (.node 2 (.node 1 (.leaf 1044912862)
 (.leaf 1044919238))
 (.node 1 (.leaf 1044919239)
 (.leaf 1044922056))))
 (.node 4 (.node 2 (.node 1 (.leaf 1044922057)
 (.leaf 1044928549))
 (.node 1 (.leaf 1044938969)
 (.leaf 1044949841)))
 (.node 2 (.node 1 (.leaf 1044956408)
 (.leaf 1044957490))
 (.node 1 (.leaf 1044972791)
 (.leaf 1044975609))))))
 (.node 16 (.node 8 (.node 4 (.node 2 (.node 1 (.leaf 1044986179)
 (.leaf 1044988293))
 (.node 1 (.leaf 1044989702)
 (.leaf 1044990406)))
 (.node 2 (.node 1 (.leaf 1044995742)
 (.leaf 1044995743))
 (.node 1 (.leaf 1045009835)
 (.leaf 1045009836))))
 (.node 4 (.node 2 (.node 1 (.leaf 1045010842)
 (.leaf 1045026344))
 (.node 1 (.leaf 1045053120)
 (.leaf 1045053121)))
 (.node 2 (.node 1 (.leaf 1045054882)
 (.leaf 1045055587))
 (.node 1 (.leaf 1045057348)
 (.leaf 1045058757)))))
 (.node 8 (.node 4 (.node 2 (.node 1 (.leaf 1045061173)
 (.leaf 1045062685))
 (.node 1 (.leaf 1045078035)
 (.leaf 1045078286)))
 (.node 2 (.node 1 (.leaf 1045079897)
 (.leaf 1045086339))
 (.node 1 (.leaf 1045086340)
 (.leaf 1045107578))))
 (.node 4 (.node 2 (.node 1 (.leaf 1045110498)
 (.leaf 1045110499))
 (.node 1 (.leaf 1045113366)
 (.leaf 1045116537)))
 (.node 2 (.node 1 (.leaf 1045120061)
 (.leaf 1045124993))
 (.node 1 (.leaf 1045124994)
 (.leaf 1045126403)))))))
 (.node 32 (.node 16 (.node 8 (.node 4 (.node 2 (.node 1 (.leaf 1045127107)
 (.leaf 1045127108))
 (.node 1 (.leaf 1045127109)
 (.leaf 1045129624)))
 (.node 2 (.node 1 (.leaf 1045133449)
 (.leaf 1045139187))
 (.node 1 (.leaf 1045153532)
 (.leaf 1045180560))))
 (.node 4 (.node 2 (.node 1 (.leaf 1045187003)
 (.leaf 1045187004))
 (.node 1 (.leaf 1045192640)
 (.leaf 1045194401)))
 (.node 2 (.node 1 (.leaf 1045195458)
 (.leaf 1045207136))
 (.node 1 (.leaf 1045215188)
 (.leaf 1045215691)))))
 (.node 8 (.node 4 (.node 2 (.node 1 (.leaf 1045225254)
 (.leaf 1045244280))
 (.node 1 (.leaf 1045247249)
 (.leaf 1045252434)))
 (.node 2 (.node 1 (.leaf 1045253944)
 (.leaf 1045254042))
 (.node 1 (.leaf 1045257467)
 (.leaf 1045262399))))
 (.node 4 (.node 2 (.node 1 (.leaf 1045263809)
 (.leaf 1045269420))
 (.node 1 (.leaf 1045272114)
 (.leaf 1045282633)))
 (.node 2 (.node 1 (.leaf 1045292195)
 (.leaf 1045294108))
 (.node 1 (.leaf 1045325666)
 (.leaf 1045327930))))))
 (.node 16 (.node 8 (.node 4 (.node 2 (.node 1 (.leaf 1045327931)
 (.leaf 1045332158))
 (.node 1 (.leaf 1045332159)
 (.leaf 1045333217)))
 (.node 2 (.node 1 (.leaf 1045340010)
 (.leaf 1045353600))
 (.node 1 (.leaf 1045354355)
 (.leaf 1045363163))))
 (.node 4 (.node 2 (.node 1 (.leaf 1045374437)
 (.leaf 1045378263))
 (.node 1 (.leaf 1045388329)
 (.leaf 1045388330)))
 (.node 2 (.node 1 (.leaf 1045390745)
 (.leaf 1045393992))
 (.node 1 (.leaf 1045398395)
 (.leaf 1045401919)))))
 (.node 8 (.node 4 (.node 2 (.node 1 (.leaf 1045412489)
 (.leaf 1045426077))
 (.node 1 (.leaf 1045426078)
 (.leaf 1045426079)))
 (.node 2 (.node 1 (.leaf 1045435641)
 (.leaf 1045444449))
 (.node 1 (.leaf 1045454766)
 (.leaf 1045454767))))
 (.node 4 (.node 2 (.node 1 (.leaf 1045459347)
 (.leaf 1045468859))
 (.node 1 (.leaf 1045468860)
 (.leaf 1045468961)))
 (.node 2 (.node 1 (.leaf 1045471678)
 (.leaf 1045473892))
 (.node 1 (.leaf 1045473893)
 (.leaf 1045488991))))))))
 (.node 64 (.node 32 (.node 16 (.node 8 (.node 4 (.node 2 (.node 1 (.leaf 1045488992)
 (.leaf 1045494932))
 (.node 1 (.leaf 1045501575)
 (.leaf 1045505099)))
 (.node 2 (.node 1 (.leaf 1045521708)
 (.leaf 1045526640))
 (.node 1 (.leaf 1045529258)
 (.leaf 1045539324))))
 (.node 4 (.node 2 (.node 1 (.leaf 1045539325)
 (.leaf 1045544022))
 (.node 1 (.leaf 1045559859)
 (.leaf 1045569523)))
 (.node 2 (.node 1 (.leaf 1045569524)
 (.leaf 1045574305))
 (.node 1 (.leaf 1045582274)
 (.leaf 1045584245)))))
 (.node 8 (.node 4 (.node 2 (.node 1 (.leaf 1045598213)
 (.leaf 1045607776))
 (.node 1 (.leaf 1045609789)
 (.leaf 1045617338)))
 (.node 2 (.node 1 (.leaf 1045626147)
 (.leaf 1045632900))
 (.node 1 (.leaf 1045634450)
 (.leaf 1045642001))))
 (.node 4 (.node 2 (.node 1 (.leaf 1045642201)
 (.leaf 1045642202))
 (.node 1 (.leaf 1045655590)
 (.leaf 1045665152)))
 (.node 2 (.node 1 (.leaf 1045680253)
 (.leaf 1045682366))
 (.node 1 (.leaf 1045683676)
 (.leaf 1045708437))))))
 (.node 16 (.node 8 (.node 4 (.node 2 (.node 1 (.leaf 1045709949)
 (.leaf 1045714478))
 (.node 1 (.leaf 1045717749)
 (.leaf 1045722530)))
 (.node 2 (.node 1 (.leaf 1045722532)
 (.leaf 1045728906))
 (.node 1 (.leaf 1045735618)
 (.leaf 1045736876))))
 (.node 4 (.node 2 (.node 1 (.leaf 1045738385)
 (.leaf 1045750717))
 (.node 1 (.leaf 1045750718)
 (.leaf 1045760784)))
 (.node 2 (.node 1 (.leaf 1045761790)
 (.leaf 1045765817))
 (.node 1 (.leaf 1045775631)
 (.leaf 1045779909)))))
 (.node 8 (.node 4 (.node 2 (.node 1 (.leaf 1045786955)
 (.leaf 1045789471))
 (.node 1 (.leaf 1045789473)
 (.leaf 1045799036)))
 (.node 2 (.node 1 (.leaf 1045801451)
 (.leaf 1045810611))
 (.node 1 (.leaf 1045812374)
 (.leaf 1045814136))))
 (.node 4 (.node 2 (.node 1 (.leaf 1045840382)
 (.leaf 1045847605))
 (.node 1 (.leaf 1045856413)
 (.leaf 1045856414)))
 (.node 2 (.node 1 (.leaf 1045860782)
 (.leaf 1045863107))
 (.node 1 (.leaf 1045865338)
 (.leaf 1045874381)))))))
 (.node 32 (.node 16 (.node 8 (.node 4 (.node 2 (.node 1 (.leaf 1045875540)
 (.leaf 1045882838))
 (.node 1 (.leaf 1045891646)
 (.leaf 1045904228)))
 (.node 2 (.node 1 (.leaf 1045913792)
 (.leaf 1045916811))
 (.node 1 (.leaf 1045930400)
 (.leaf 1045930401))))
 (.node 4 (.node 2 (.node 1 (.leaf 1045933642)
 (.leaf 1045936742))
 (.node 1 (.leaf 1045936743)
 (.leaf 1045942480)))
 (.node 2 (.node 1 (.leaf 1045952044)
 (.leaf 1045955063))
 (.node 1 (.leaf 1045955064)
 (.leaf 1045971169)))))
 (.node 8 (.node 4 (.node 2 (.node 1 (.leaf 1045971170)
 (.leaf 1045971171))
 (.node 1 (.leaf 1045972176)
 (.leaf 1045996778)))
 (.node 2 (.node 1 (.leaf 1045997342)
 (.leaf 1045998223))
 (.node 1 (.leaf 1045999859)
 (.leaf 1046004388))))
 (.node 4 (.node 2 (.node 1 (.leaf 1046028548)
 (.leaf 1046042533))
 (.node 1 (.leaf 1046054720)
 (.leaf 1046070625)))
 (.node 2 (.node 1 (.leaf 1046078376)
 (.leaf 1046095488))
 (.node 1 (.leaf 1046105051)
 (.leaf 1046109834))))))
 (.node 16 (.node 8 (.node 4 (.node 2 (.node 1 (.leaf 1046131400)
 (.leaf 1046138271))
 (.node 1 (.leaf 1046139680)
 (.leaf 1046143304)))
 (.node 2 (.node 1 (.leaf 1046143908)
 (.leaf 1046149344))
 (.node 1 (.leaf 1046152363)
 (.leaf 1046157649))))
 (.node 4 (.node 2 (.node 1 (.leaf 1046165801)
 (.leaf 1046173502))
 (.node 1 (.leaf 1046181556)
 (.leaf 1046191119)))
 (.node 2 (.node 1 (.leaf 1046200208)
 (.leaf 1046218801))
 (.node 1 (.leaf 1046224086)
 (.leaf 1046226351)))))
 (.node 8 (.node 4 (.node 2 (.node 1 (.leaf 1046231284)
 (.leaf 1046234384))
 (.node 1 (.leaf 1046240241)
 (.leaf 1046244671)))
 (.node 2 (.node 1 (.leaf 1046253228)
 (.leaf 1046254888))
 (.node 1 (.leaf 1046255643)
 (.leaf 1046258060))))
 (.node 4 (.node 2 (.node 1 (.leaf 1046258061)
 (.leaf 1046267572))
 (.node 1 (.leaf 1046285240)
 (.leaf 1046294298)))
 (.node 2 (.node 1 (.leaf 1046294299)
 (.leaf 1046295707))
 (.node 1 (.leaf 1046300338)
 (.leaf 1046300339)))))))))
 (.node 128 (.node 64 (.node 32 (.node 16 (.node 8 (.node 4 (.node 2 (.node 1 (.leaf 1046304919)
 (.leaf 1046307244))
 (.node 1 (.leaf 1046308795)
 (.leaf 1046314835)))
 (.node 2 (.node 1 (.leaf 1046315438)
 (.leaf 1046331376))
 (.node 1 (.leaf 1046334564)
 (.leaf 1046334565))))
 (.node 4 (.node 2 (.node 1 (.leaf 1046342617)
 (.leaf 1046344629))
 (.node 1 (.leaf 1046353186)
 (.leaf 1046365165)))
 (.node 2 (.node 1 (.leaf 1046369796)
 (.leaf 1046373572))
 (.node 1 (.leaf 1046374326)
 (.leaf 1046394962)))))
 (.node 8 (.node 4 (.node 2 (.node 1 (.leaf 1046406285)
 (.leaf 1046415095))
 (.node 1 (.leaf 1046418718)
 (.leaf 1046430193)))
 (.node 2 (.node 1 (.leaf 1046430194)
 (.leaf 1046430195))
 (.node 1 (.leaf 1046438449)
 (.leaf 1046439434))))
 (.node 4 (.node 2 (.node 1 (.leaf 1046445294)
 (.leaf 1046455290))
 (.node 1 (.leaf 1046455359)
 (.leaf 1046458884)))
 (.node 2 (.node 1 (.leaf 1046468445)
 (.leaf 1046478966))
 (.node 1 (.leaf 1046487571)
 (.leaf 1046487572))))))
 (.node 16 (.node 8 (.node 4 (.node 2 (.node 1 (.leaf 1046487573)
 (.leaf 1046503276))
 (.node 1 (.leaf 1046507202)
 (.leaf 1046520792)))
 (.node 2 (.node 1 (.leaf 1046525824)
 (.leaf 1046535127))
 (.node 1 (.leaf 1046547817)
 (.leaf 1046564076))))
 (.node 4 (.node 2 (.node 1 (.leaf 1046569865)
 (.leaf 1046579377))
 (.node 1 (.leaf 1046596288)
 (.leaf 1046596289)))
 (.node 2 (.node 1 (.leaf 1046602330)
 (.leaf 1046602454))
 (.node 1 (.leaf 1046603335)
 (.leaf 1046606154)))))
 (.node 8 (.node 4 (.node 2 (.node 1 (.leaf 1046621455)
 (.leaf 1046645614))
 (.node 1 (.leaf 1046659707)
 (.leaf 1046671787)))
 (.node 2 (.node 1 (.leaf 1046676617)
 (.leaf 1046680846))
 (.node 1 (.leaf 1046696953)
 (.leaf 1046699870))))
 (.node 4 (.node 2 (.node 1 (.leaf 1046701146)
 (.leaf 1046717083))
 (.node 1 (.leaf 1046717084)
 (.leaf 1046736210)))
 (.node 2 (.node 1 (.leaf 1046738224)
 (.leaf 1046747284))
 (.node 1 (.leaf 1046758356)
 (.leaf 1046759866)))))))
 (.node 32 (.node 16 (.node 8 (.node 4 (.node 2 (.node 1 (.leaf 1046766811)
 (.leaf 1046772449))
 (.node 1 (.leaf 1046774463)
 (.leaf 1046776376)))
 (.node 2 (.node 1 (.leaf 1046777483)
 (.leaf 1046781257))
 (.node 1 (.leaf 1046793588)
 (.leaf 1046793589))))
 (.node 4 (.node 2 (.node 1 (.leaf 1046799963)
 (.leaf 1046809619))
 (.node 1 (.leaf 1046815232)
 (.leaf 1046820365)))
 (.node 2 (.node 1 (.leaf 1046835867)
 (.leaf 1046858013))
 (.node 1 (.leaf 1046860529)
 (.leaf 1046860530)))))
 (.node 8 (.node 4 (.node 2 (.node 1 (.leaf 1046871686)
 (.leaf 1046892239))
 (.node 1 (.leaf 1046893446)
 (.leaf 1046894000)))
 (.node 2 (.node 1 (.leaf 1046912774)
 (.leaf 1046913378))
 (.node 1 (.leaf 1046913379)
 (.leaf 1046917907))))
 (.node 4 (.node 2 (.node 1 (.leaf 1046939802)
 (.leaf 1046940859))
 (.node 1 (.leaf 1046946597)
 (.leaf 1046946598)))
 (.node 2 (.node 1 (.leaf 1046947730)
 (.leaf 1046951429))
 (.node 1 (.leaf 1046952636)
 (.leaf 1046953040))))))
 (.node 16 (.node 8 (.node 4 (.node 2 (.node 1 (.leaf 1046981024)
 (.leaf 1046990889))
 (.node 1 (.leaf 1047003976)
 (.leaf 1047010921)))
 (.node 2 (.node 1 (.leaf 1047019074)
 (.leaf 1047030349))
 (.node 1 (.leaf 1047048601)
 (.leaf 1047061352))))
 (.node 4 (.node 2 (.node 1 (.leaf 1047061354)
 (.leaf 1047070211))
 (.node 1 (.leaf 1047077056)
 (.leaf 1047084003)))
 (.node 2 (.node 1 (.leaf 1047090041)
 (.leaf 1047090042))
 (.node 1 (.leaf 1047098346)
 (.leaf 1047099604)))))
 (.node 8 (.node 4 (.node 2 (.node 1 (.leaf 1047099605)
 (.leaf 1047099606))
 (.node 1 (.leaf 1047106048)
 (.leaf 1047109672)))
 (.node 2 (.node 1 (.leaf 1047114905)
 (.leaf 1047124772))
 (.node 1 (.leaf 1047145911)
 (.leaf 1047156984))))
 (.node 4 (.node 2 (.node 1 (.leaf 1047161764)
 (.leaf 1047164030))
 (.node 1 (.leaf 1047168459)
 (.leaf 1047180136)))
 (.node 2 (.node 1 (.leaf 1047185773)
 (.leaf 1047195235))
 (.node 1 (.leaf 1047200268)
 (.leaf 1047212178))))))))
 (.node 64 (.node 32 (.node 16 (.node 8 (.node 4 (.node 2 (.node 1 (.leaf 1047214361)
 (.leaf 1047214362))
 (.node 1 (.leaf 1047220743)
 (.leaf 1047242622)))
 (.node 2 (.node 1 (.leaf 1047243050)
 (.leaf 1047243052))
 (.node 1 (.leaf 1047245567)
 (.leaf 1047256892))))
 (.node 4 (.node 2 (.node 1 (.leaf 1047260666)
 (.leaf 1047260667))
 (.node 1 (.leaf 1047262176)
 (.leaf 1047265498)))
 (.node 2 (.node 1 (.leaf 1047276269)
 (.leaf 1047285430))
 (.node 1 (.leaf 1047286084)
 (.leaf 1047290865)))))
 (.node 8 (.node 4 (.node 2 (.node 1 (.leaf 1047290866)
 (.leaf 1047297057))
 (.node 1 (.leaf 1047300932)
 (.leaf 1047302340)))
 (.node 2 (.node 1 (.leaf 1047302341)
 (.leaf 1047315780))
 (.node 1 (.leaf 1047323581)
 (.leaf 1047324085))))
 (.node 4 (.node 2 (.node 1 (.leaf 1047329116)
 (.leaf 1047341197))
 (.node 1 (.leaf 1047348494)
 (.leaf 1047357302)))
 (.node 2 (.node 1 (.leaf 1047367370)
 (.leaf 1047371396))
 (.node 1 (.leaf 1047372403)
 (.leaf 1047382671))))))
 (.node 16 (.node 8 (.node 4 (.node 2 (.node 1 (.leaf 1047384361)
 (.leaf 1047401595))
 (.node 1 (.leaf 1047405621)
 (.leaf 1047405622)))
 (.node 2 (.node 1 (.leaf 1047409446)
 (.leaf 1047415184))
 (.node 1 (.leaf 1047421728)
 (.leaf 1047424749))))
 (.node 4 (.node 2 (.node 1 (.leaf 1047424950)
 (.leaf 1047438336))
 (.node 1 (.leaf 1047441256)
 (.leaf 1047441861)))
 (.node 2 (.node 1 (.leaf 1047442917)
 (.leaf 1047447145))
 (.node 1 (.leaf 1047453940)
 (.leaf 1047463000)))))
 (.node 8 (.node 4 (.node 2 (.node 1 (.leaf 1047482126)
 (.leaf 1047484140))
 (.node 1 (.leaf 1047502258)
 (.leaf 1047502259)))
 (.node 2 (.node 1 (.leaf 1047503163)
 (.leaf 1047519370))
 (.node 1 (.leaf 1047529940)
 (.leaf 1047535477))))
 (.node 4 (.node 2 (.node 1 (.leaf 1047538899)
 (.leaf 1047543329))
 (.node 1 (.leaf 1047544537)
 (.leaf 1047547133)))
 (.node 2 (.node 1 (.leaf 1047570106)
 (.leaf 1047574333))
 (.node 1 (.leaf 1047577756)
 (.leaf 1047577757)))))))
 (.node 32 (.node 16 (.node 8 (.node 4 (.node 2 (.node 1 (.leaf 1047582788)
 (.leaf 1047582790))
 (.node 1 (.leaf 1047595287)
 (.leaf 1047596881)))
 (.node 2 (.node 1 (.leaf 1047600405)
 (.leaf 1047606443))
 (.node 1 (.leaf 1047606446)
 (.leaf 1047612735))))
 (.node 4 (.node 2 (.node 1 (.leaf 1047620034)
 (.leaf 1047626140))
 (.node 1 (.leaf 1047628087)
 (.leaf 1047628732)))
 (.node 2 (.node 1 (.leaf 1047630353)
 (.leaf 1047635134))
 (.node 1 (.leaf 1047651189)
 (.leaf 1047653253)))))
 (.node 8 (.node 4 (.node 2 (.node 1 (.leaf 1047653254)
 (.leaf 1047663320))
 (.node 1 (.leaf 1047663823)
 (.leaf 1047673386)))
 (.node 2 (.node 1 (.leaf 1047678167)
 (.leaf 1047681439))
 (.node 1 (.leaf 1047701169)
 (.leaf 1047703987))))
 (.node 4 (.node 2 (.node 1 (.leaf 1047703988)
 (.leaf 1047709060))
 (.node 1 (.leaf 1047721201)
 (.leaf 1047729757)))
 (.node 2 (.node 1 (.leaf 1047730764)
 (.leaf 1047741334))
 (.node 1 (.leaf 1047743850)
 (.leaf 1047743851))))))
 (.node 16 (.node 8 (.node 4 (.node 2 (.node 1 (.leaf 1047747323)
 (.leaf 1047753077))
 (.node 1 (.leaf 1047764233)
 (.leaf 1047772414)))
 (.node 2 (.node 1 (.leaf 1047788143)
 (.leaf 1047791665))
 (.node 1 (.leaf 1047799215)
 (.leaf 1047805003))))
 (.node 4 (.node 2 (.node 1 (.leaf 1047807269)
 (.leaf 1047811092))
 (.node 1 (.leaf 1047814616)
 (.leaf 1047824381)))
 (.node 2 (.node 1 (.leaf 1047829414)
 (.leaf 1047835957))
 (.node 1 (.leaf 1047840738)
 (.leaf 1047859010)))))
 (.node 8 (.node 4 (.node 2 (.node 1 (.leaf 1047864646)
 (.leaf 1047871340))
 (.node 1 (.leaf 1047871411)
 (.leaf 1047883771)))
 (.node 2 (.node 1 (.leaf 1047885182)
 (.leaf 1047888805))
 (.node 1 (.leaf 1047893335)
 (.leaf 1047898468))))
 (.node 4 (.node 2 (.node 1 (.leaf 1047899854)
 (.leaf 1047904911))
 (.node 1 (.leaf 1047909944)
 (.leaf 1047917494)))
 (.node 2 (.node 1 (.leaf 1047918198)
 (.leaf 1047928894))
 (.node 1 (.leaf 1047943918)
 (.leaf 1047944976)))))))))))))
 (.node 2048 (.node 1024 (.node 512 (.node 256 (.node 128 (.node 64 (.node 32 (.node 16 (.node 8 (.node 4 (.node 2 (.node 1 (.leaf 1047949203)
 (.leaf 1047957659))
 (.node 1 (.leaf 1047969840)
 (.leaf 1047979403)))
 (.node 2 (.node 1 (.leaf 1047982320)
 (.leaf 1047985140))
 (.node 1 (.leaf 1048000542)
 (.leaf 1048005575))))
 (.node 4 (.node 2 (.node 1 (.leaf 1048025708)
 (.leaf 1048026714))
 (.node 1 (.leaf 1048033760)
 (.leaf 1048038927)))
 (.node 2 (.node 1 (.leaf 1048040605)
 (.leaf 1048055906))
 (.node 1 (.leaf 1048055907)
 (.leaf 1048066173)))))
 (.node 8 (.node 4 (.node 2 (.node 1 (.leaf 1048070251)
 (.leaf 1048076039))
 (.node 1 (.leaf 1048078856)
 (.leaf 1048078857)))
 (.node 2 (.node 1 (.leaf 1048093655)
 (.leaf 1048096046))
 (.node 1 (.leaf 1048105633)
 (.leaf 1048105634))))
 (.node 4 (.node 2 (.node 1 (.leaf 1048106238)
 (.leaf 1048118317))
 (.node 1 (.leaf 1048119021)
 (.leaf 1048141470)))
 (.node 2 (.node 1 (.leaf 1048147459)
 (.leaf 1048151536))
 (.node 1 (.leaf 1048151537)
 (.leaf 1048159087))))))
 (.node 16 (.node 8 (.node 4 (.node 2 (.node 1 (.leaf 1048161099)
 (.leaf 1048181735))
 (.node 1 (.leaf 1048181736)
 (.leaf 1048185963)))
 (.node 2 (.node 1 (.leaf 1048186770)
 (.leaf 1048199351))
 (.node 1 (.leaf 1048202875)
 (.leaf 1048206046))))
 (.node 4 (.node 2 (.node 1 (.leaf 1048208914)
 (.leaf 1048219484))
 (.node 1 (.leaf 1048221664)
 (.leaf 1048227033)))
 (.node 2 (.node 1 (.leaf 1048228545)
 (.leaf 1048232167))
 (.node 1 (.leaf 1048247167)
 (.leaf 1048265688)))))
 (.node 8 (.node 4 (.node 2 (.node 1 (.leaf 1048266292)
 (.leaf 1048266293))
 (.node 1 (.leaf 1048269817)
 (.leaf 1048271073)))
 (.node 2 (.node 1 (.leaf 1048287432)
 (.leaf 1048287433))
 (.node 1 (.leaf 1048293069)
 (.leaf 1048307564))))
 (.node 4 (.node 2 (.node 1 (.leaf 1048312597)
 (.leaf 1048316876))
 (.node 1 (.leaf 1048317732)
 (.leaf 1048323671)))
 (.node 2 (.node 1 (.leaf 1048323672)
 (.leaf 1048327168))
 (.node 1 (.leaf 1048329709)
 (.leaf 1048357897)))))))
 (.node 32 (.node 16 (.node 8 (.node 4 (.node 2 (.node 1 (.leaf 1048362125)
 (.leaf 1048366704))
 (.node 1 (.leaf 1048371990)
 (.leaf 1048379035)))
 (.node 2 (.node 1 (.leaf 1048398161)
 (.leaf 1048398162))
 (.node 1 (.leaf 1048400175)
 (.leaf 1048405209))))
 (.node 4 (.node 2 (.node 1 (.leaf 1048405586)
 (.leaf 1048408228))
 (.node 1 (.leaf 1048419302)
 (.leaf 1048420259)))
 (.node 2 (.node 1 (.leaf 1048424082)
 (.leaf 1048428863))
 (.node 1 (.leaf 1048438427)
 (.leaf 1048445977)))))
 (.node 8 (.node 4 (.node 2 (.node 1 (.leaf 1048453903)
 (.leaf 1048483725))
 (.node 1 (.leaf 1048495805)
 (.leaf 1048495806)))
 (.node 2 (.node 1 (.leaf 1048497617)
 (.leaf 1048497618))
 (.node 1 (.leaf 1048507280)
 (.leaf 1048514933))))
 (.node 4 (.node 2 (.node 1 (.leaf 1048526004)
 (.leaf 1048534056))
 (.node 1 (.leaf 1048534057)
 (.leaf 1048534058)))
 (.node 2 (.node 1 (.leaf 1048541104)
 (.leaf 1048544626))
 (.node 1 (.leaf 1048549156)
 (.leaf 1048559224))))))
 (.node 16 (.node 8 (.node 4 (.node 2 (.node 1 (.leaf 1048569289)
 (.leaf 1048571806))
 (.node 1 (.leaf 1048575531)
 (.leaf 1048577342)))
 (.node 2 (.node 1 (.leaf 1048578936)
 (.leaf 1048583843))
 (.node 1 (.leaf 1048588992)
 (.leaf 1048590891))))
 (.node 4 (.node 2 (.node 1 (.leaf 1048599069)
 (.leaf 1048602843))
 (.node 1 (.leaf 1048602844)
 (.leaf 1048603473)))
 (.node 2 (.node 1 (.leaf 1048615426)
 (.leaf 1048617188))
 (.node 1 (.leaf 1048621500)
 (.leaf 1048621970)))))
 (.node 8 (.node 4 (.node 2 (.node 1 (.leaf 1048628664)
 (.leaf 1048631218))
 (.node 1 (.leaf 1048636315)
 (.leaf 1048638579)))
 (.node 2 (.node 1 (.leaf 1048643108)
 (.leaf 1048643109))
 (.node 1 (.leaf 1048645877)
 (.leaf 1048646632))))
 (.node 4 (.node 2 (.node 1 (.leaf 1048650659)
 (.leaf 1048660725))
 (.node 1 (.leaf 1048665003)
 (.leaf 1048666362)))
 (.node 2 (.node 1 (.leaf 1048672176)
 (.leaf 1048680858))
 (.node 1 (.leaf 1048687149)
 (.leaf 1048695202))))))))
 (.node 64 (.node 32 (.node 16 (.node 8 (.node 4 (.node 2 (.node 1 (.leaf 1048698474)
 (.leaf 1048699732))
 (.node 1 (.leaf 1048700990)
 (.leaf 1048702299)))
 (.node 2 (.node 1 (.leaf 1048708037)
 (.leaf 1048710755))
 (.node 1 (.leaf 1048711434)
 (.leaf 1048715209))))
 (.node 4 (.node 2 (.node 1 (.leaf 1048715687)
 (.leaf 1048717519))
 (.node 1 (.leaf 1048719991)
 (.leaf 1048722381)))
 (.node 2 (.node 1 (.leaf 1048727162)
 (.leaf 1048727163))
 (.node 1 (.leaf 1048731189)
 (.leaf 1048735257)))))
 (.node 8 (.node 4 (.node 2 (.node 1 (.leaf 1048739117)
 (.leaf 1048739746))
 (.node 1 (.leaf 1048740954)
 (.leaf 1048742463)))
 (.node 2 (.node 1 (.leaf 1048743772)
 (.leaf 1048752882))
 (.node 1 (.leaf 1048753839)
 (.leaf 1048755147))))
 (.node 4 (.node 2 (.node 1 (.leaf 1048755852)
 (.leaf 1048761489))
 (.node 1 (.leaf 1048768938)
 (.leaf 1048769945)))
 (.node 2 (.node 1 (.leaf 1048772109)
 (.leaf 1048772586))
 (.node 1 (.leaf 1048772587)
 (.leaf 1048775230))))))
 (.node 16 (.node 8 (.node 4 (.node 2 (.node 1 (.leaf 1048780011)
 (.leaf 1048794104))
 (.node 1 (.leaf 1048797728)
 (.leaf 1048809404)))
 (.node 2 (.node 1 (.leaf 1048812945)
 (.leaf 1048813230))
 (.node 1 (.leaf 1048818012)
 (.leaf 1048819068))))
 (.node 4 (.node 2 (.node 1 (.leaf 1048819270)
 (.leaf 1048821031))
 (.node 1 (.leaf 1048822793)
 (.leaf 1048824303)))
 (.node 2 (.node 1 (.leaf 1048836571)
 (.leaf 1048839402))
 (.node 1 (.leaf 1048841919)
 (.leaf 1048842573)))))
 (.node 8 (.node 4 (.node 2 (.node 1 (.leaf 1048844435)
 (.leaf 1048846953))
 (.node 1 (.leaf 1048850345)
 (.leaf 1048857144)))
 (.node 2 (.node 1 (.leaf 1048863310)
 (.leaf 1048863436))
 (.node 1 (.leaf 1048875390)
 (.leaf 1048879693))))
 (.node 4 (.node 2 (.node 1 (.leaf 1048884701)
 (.leaf 1048887419))
 (.node 1 (.leaf 1048889733)
 (.leaf 1048889734)))
 (.node 2 (.node 1 (.leaf 1048891143)
 (.leaf 1048895231))
 (.node 1 (.leaf 1048907350)
 (.leaf 1048908860)))))))
 (.node 32 (.node 16 (.node 8 (.node 4 (.node 2 (.node 1 (.leaf 1048913692)
 (.leaf 1048917920))
 (.node 1 (.leaf 1048923204)
 (.leaf 1048923205)))
 (.node 2 (.node 1 (.leaf 1048924966)
 (.leaf 1048929999))
 (.node 1 (.leaf 1048930377)
 (.leaf 1048933019))))
 (.node 4 (.node 2 (.node 1 (.leaf 1048935536)
 (.leaf 1048937549))
 (.node 1 (.leaf 1048946986)
 (.leaf 1048954285)))
 (.node 2 (.node 1 (.leaf 1048957681)
 (.leaf 1048963370))
 (.node 1 (.leaf 1048966238)
 (.leaf 1048966717)))))
 (.node 8 (.node 4 (.node 2 (.node 1 (.leaf 1048973410)
 (.leaf 1048975298))
 (.node 1 (.leaf 1048977110)
 (.leaf 1048981338)))
 (.node 2 (.node 1 (.leaf 1048985364)
 (.leaf 1048991907))
 (.node 1 (.leaf 1048995431)
 (.leaf 1048999710))))
 (.node 4 (.node 2 (.node 1 (.leaf 1049010782)
 (.leaf 1049013539))
 (.node 1 (.leaf 1049018143)
 (.leaf 1049018261)))
 (.node 2 (.node 1 (.leaf 1049020597)
 (.leaf 1049023616))
 (.node 1 (.leaf 1049023617)
 (.leaf 1049027139))))))
 (.node 16 (.node 8 (.node 4 (.node 2 (.node 1 (.leaf 1049031669)
 (.leaf 1049032248))
 (.node 1 (.leaf 1049033179)
 (.leaf 1049033180)))
 (.node 2 (.node 1 (.leaf 1049040226)
 (.leaf 1049042218))
 (.node 1 (.leaf 1049043698)
 (.leaf 1049045133))))
 (.node 4 (.node 2 (.node 1 (.leaf 1049045134)
 (.leaf 1049045762))
 (.node 1 (.leaf 1049048996)
 (.leaf 1049057087)))
 (.node 2 (.node 1 (.leaf 1049063441)
 (.leaf 1049063780))
 (.node 1 (.leaf 1049064259)
 (.leaf 1049065895)))))
 (.node 8 (.node 4 (.node 2 (.node 1 (.leaf 1049070122)
 (.leaf 1049072941))
 (.node 1 (.leaf 1049075709)
 (.leaf 1049077974)))
 (.node 2 (.node 1 (.leaf 1049079736)
 (.leaf 1049080995))
 (.node 1 (.leaf 1049086027)
 (.leaf 1049086611))))
 (.node 4 (.node 2 (.node 1 (.leaf 1049090557)
 (.leaf 1049090558))
 (.node 1 (.leaf 1049099805)
 (.leaf 1049107293)))
 (.node 2 (.node 1 (.leaf 1049112137)
 (.leaf 1049112870))
 (.node 1 (.leaf 1049114968)
 (.leaf 1049115220)))))))))
 (.node 128 (.node 64 (.node 32 (.node 16 (.node 8 (.node 4 (.node 2 (.node 1 (.leaf 1049116855)
 (.leaf 1049118743))
 (.node 1 (.leaf 1049121763)
 (.leaf 1049124027)))
 (.node 2 (.node 1 (.leaf 1049124028)
 (.leaf 1049124279))
 (.node 1 (.leaf 1049126293)
 (.leaf 1049128810))))
 (.node 4 (.node 2 (.node 1 (.leaf 1049135981)
 (.leaf 1049138373))
 (.node 1 (.leaf 1049152507)
 (.leaf 1049153035)))
 (.node 2 (.node 1 (.leaf 1049154151)
 (.leaf 1049156492))
 (.node 1 (.leaf 1049157499)
 (.leaf 1049164545)))))
 (.node 8 (.node 4 (.node 2 (.node 1 (.leaf 1049167816)
 (.leaf 1049170584))
 (.node 1 (.leaf 1049170887)
 (.leaf 1049171591)))
 (.node 2 (.node 1 (.leaf 1049175870)
 (.leaf 1049176624))
 (.node 1 (.leaf 1049176625)
 (.leaf 1049177580))))
 (.node 4 (.node 2 (.node 1 (.leaf 1049181407)
 (.leaf 1049184275))
 (.node 1 (.leaf 1049185232)
 (.leaf 1049197804)))
 (.node 2 (.node 1 (.leaf 1049198015)
 (.leaf 1049205314))
 (.node 1 (.leaf 1049206320)
 (.leaf 1049206822))))))
 (.node 16 (.node 8 (.node 4 (.node 2 (.node 1 (.leaf 1049206823)
 (.leaf 1049210346))
 (.node 1 (.leaf 1049213870)
 (.leaf 1049215632)))
 (.node 2 (.node 1 (.leaf 1049216890)
 (.leaf 1049218097))
 (.node 1 (.leaf 1049219406)
 (.leaf 1049221269))))
 (.node 4 (.node 2 (.node 1 (.leaf 1049221420)
 (.leaf 1049222930))
 (.node 1 (.leaf 1049223936)
 (.leaf 1049224439)))
 (.node 2 (.node 1 (.leaf 1049224440)
 (.leaf 1049228744))
 (.node 1 (.leaf 1049231134)
 (.leaf 1049243817)))))
 (.node 8 (.node 4 (.node 2 (.node 1 (.leaf 1049247089)
 (.leaf 1049253799))
 (.node 1 (.leaf 1049263195)
 (.leaf 1049265963)))
 (.node 2 (.node 1 (.leaf 1049268228)
 (.leaf 1049269990))
 (.node 1 (.leaf 1049271248)
 (.leaf 1049271297))))
 (.node 4 (.node 2 (.node 1 (.leaf 1049272255)
 (.leaf 1049277993))
 (.node 1 (.leaf 1049277994)
 (.leaf 1049280580)))
 (.node 2 (.node 1 (.leaf 1049290500)
 (.leaf 1049292789))
 (.node 1 (.leaf 1049292974)
 (.leaf 1049303334)))))))
 (.node 32 (.node 16 (.node 8 (.node 4 (.node 2 (.node 1 (.leaf 1049312520)
 (.leaf 1049315037))
 (.node 1 (.leaf 1049317050)
 (.leaf 1049318560)))
 (.node 2 (.node 1 (.leaf 1049319566)
 (.leaf 1049320070))
 (.node 1 (.leaf 1049322586)
 (.leaf 1049324851))))
 (.node 4 (.node 2 (.node 1 (.leaf 1049328021)
 (.leaf 1049332023))
 (.node 1 (.leaf 1049336805)
 (.leaf 1049337183)))
 (.node 2 (.node 1 (.leaf 1049339196)
 (.leaf 1049339296))
 (.node 1 (.leaf 1049339297)
 (.leaf 1049343348)))))
 (.node 8 (.node 4 (.node 2 (.node 1 (.leaf 1049344933)
 (.leaf 1049347751))
 (.node 1 (.leaf 1049347752)
 (.leaf 1049350007)))
 (.node 2 (.node 1 (.leaf 1049354043)
 (.leaf 1049359077))
 (.node 1 (.leaf 1049361845)
 (.leaf 1049364110))))
 (.node 4 (.node 2 (.node 1 (.leaf 1049365871)
 (.leaf 1049367130))
 (.node 1 (.leaf 1049367885)
 (.leaf 1049368136)))
 (.node 2 (.node 1 (.leaf 1049371710)
 (.leaf 1049377699))
 (.node 1 (.leaf 1049385501)
 (.leaf 1049387011))))))
 (.node 16 (.node 8 (.node 4 (.node 2 (.node 1 (.leaf 1049391792)
 (.leaf 1049394728))
 (.node 1 (.leaf 1049401355)
 (.leaf 1049402110)))
 (.node 2 (.node 1 (.leaf 1049411170)
 (.leaf 1049411171))
 (.node 1 (.leaf 1049413184)
 (.leaf 1049414693))))
 (.node 4 (.node 2 (.node 1 (.leaf 1049415700)
 (.leaf 1049416203))
 (.node 1 (.leaf 1049421035)
 (.leaf 1049421528)))
 (.node 2 (.node 1 (.leaf 1049424256)
 (.leaf 1049425263))
 (.node 1 (.leaf 1049435832)
 (.leaf 1049435833)))))
 (.node 8 (.node 4 (.node 2 (.node 1 (.leaf 1049437217)
 (.leaf 1049439607))
 (.node 1 (.leaf 1049441704)
 (.leaf 1049442879)))
 (.node 2 (.node 1 (.leaf 1049444389)
 (.leaf 1049448415))
 (.node 1 (.leaf 1049452190)
 (.leaf 1049453951))))
 (.node 4 (.node 2 (.node 1 (.leaf 1049455462)
 (.leaf 1049458230))
 (.node 1 (.leaf 1049460495)
 (.leaf 1049462257)))
 (.node 2 (.node 1 (.leaf 1049463515)
 (.leaf 1049464270))
 (.node 1 (.leaf 1049464521)
 (.leaf 1049465427))))))))
 (.node 64 (.node 32 (.node 16 (.node 8 (.node 4 (.node 2 (.node 1 (.leaf 1049468387)
 (.leaf 1049471064))
 (.node 1 (.leaf 1049472072)
 (.leaf 1049472122)))
 (.node 2 (.node 1 (.leaf 1049473581)
 (.leaf 1049475468))
 (.node 1 (.leaf 1049482641)
 (.leaf 1049488680))))
 (.node 4 (.node 2 (.node 1 (.leaf 1049488681)
 (.leaf 1049498268))
 (.node 1 (.leaf 1049498747)
 (.leaf 1049499376)))
 (.node 2 (.node 1 (.leaf 1049505592)
 (.leaf 1049507807))
 (.node 1 (.leaf 1049509820)
 (.leaf 1049511330)))))
 (.node 8 (.node 4 (.node 2 (.node 1 (.leaf 1049511331)
 (.leaf 1049512336))
 (.node 1 (.leaf 1049512840)
 (.leaf 1049514752)))
 (.node 2 (.node 1 (.leaf 1049517218)
 (.leaf 1049518745))
 (.node 1 (.leaf 1049523283)
 (.leaf 1049523913))))
 (.node 4 (.node 2 (.node 1 (.leaf 1049525674)
 (.leaf 1049530204))
 (.node 1 (.leaf 1049535656)
 (.leaf 1049542410)))
 (.node 2 (.node 1 (.leaf 1049542510)
 (.leaf 1049548952))
 (.node 1 (.leaf 1049549079)
 (.leaf 1049549582))))))
 (.node 16 (.node 8 (.node 4 (.node 2 (.node 1 (.leaf 1049552351)
 (.leaf 1049557383))
 (.node 1 (.leaf 1049557384)
 (.leaf 1049559144)))
 (.node 2 (.node 1 (.leaf 1049559145)
 (.leaf 1049559146))
 (.node 1 (.leaf 1049560404)
 (.leaf 1049561158))))
 (.node 4 (.node 2 (.node 1 (.leaf 1049565064)
 (.leaf 1049572672))
 (.node 1 (.leaf 1049575880)
 (.leaf 1049585568)))
 (.node 2 (.node 1 (.leaf 1049597397)
 (.leaf 1049599410))
 (.node 1 (.leaf 1049602430)
 (.leaf 1049604947)))))
 (.node 8 (.node 4 (.node 2 (.node 1 (.leaf 1049606604)
 (.leaf 1049606960))
 (.node 1 (.leaf 1049606961)
 (.leaf 1049608470)))
 (.node 2 (.node 1 (.leaf 1049609477)
 (.leaf 1049609980))
 (.node 1 (.leaf 1049619743)
 (.leaf 1049626085))))
 (.node 4 (.node 2 (.node 1 (.leaf 1049626086)
 (.leaf 1049634013))
 (.node 1 (.leaf 1049635649)
 (.leaf 1049639273)))
 (.node 2 (.node 1 (.leaf 1049649037)
 (.leaf 1049649741))
 (.node 1 (.leaf 1049652510)
 (.leaf 1049654775)))))))
 (.node 32 (.node 16 (.node 8 (.node 4 (.node 2 (.node 1 (.leaf 1049654776)
 (.leaf 1049656034))
 (.node 1 (.leaf 1049656537)
 (.leaf 1049657795)))
 (.node 2 (.node 1 (.leaf 1049658550)
 (.leaf 1049671007))
 (.node 1 (.leaf 1049674161)
 (.leaf 1049675763))))
 (.node 4 (.node 2 (.node 1 (.leaf 1049676292)
 (.leaf 1049676368))
 (.node 1 (.leaf 1049678330)
 (.leaf 1049682457)))
 (.node 2 (.node 1 (.leaf 1049685541)
 (.leaf 1049693026))
 (.node 1 (.leaf 1049695418)
 (.leaf 1049700073)))))
 (.node 8 (.node 4 (.node 2 (.node 1 (.leaf 1049702590)
 (.leaf 1049704604))
 (.node 1 (.leaf 1049706114)
 (.leaf 1049706416)))
 (.node 2 (.node 1 (.leaf 1049707120)
 (.leaf 1049707372))
 (.node 1 (.leaf 1049712153)
 (.leaf 1049719803))))
 (.node 4 (.node 2 (.node 1 (.leaf 1049721037)
 (.leaf 1049725441))
 (.node 1 (.leaf 1049726497)
 (.leaf 1049730901)))
 (.node 2 (.node 1 (.leaf 1049731531)
 (.leaf 1049733191))
 (.node 1 (.leaf 1049737822)
 (.leaf 1049745460))))))
 (.node 16 (.node 8 (.node 4 (.node 2 (.node 1 (.leaf 1049748015)
 (.leaf 1049750405))
 (.node 1 (.leaf 1049750406)
 (.leaf 1049752670)))
 (.node 2 (.node 1 (.leaf 1049754432)
 (.leaf 1049756444))
 (.node 1 (.leaf 1049756445)
 (.leaf 1049759968))))
 (.node 4 (.node 2 (.node 1 (.leaf 1049759969)
 (.leaf 1049768965))
 (.node 1 (.leaf 1049770537)
 (.leaf 1049770538)))
 (.node 2 (.node 1 (.leaf 1049771880)
 (.leaf 1049775906))
 (.node 1 (.leaf 1049776176)
 (.leaf 1049776703)))))
 (.node 8 (.node 4 (.node 2 (.node 1 (.leaf 1049783785)
 (.leaf 1049793438))
 (.node 1 (.leaf 1049793439)
 (.leaf 1049795502)))
 (.node 2 (.node 1 (.leaf 1049798221)
 (.leaf 1049800737))
 (.node 1 (.leaf 1049805770)
 (.leaf 1049805771))))
 (.node 4 (.node 2 (.node 1 (.leaf 1049810678)
 (.leaf 1049813319))
 (.node 1 (.leaf 1049817346)
 (.leaf 1049819737)))
 (.node 2 (.node 1 (.leaf 1049820567)
 (.leaf 1049822128))
 (.node 1 (.leaf 1049826372)
 (.leaf 1049826908))))))))))
 (.node 256 (.node 128 (.node 64 (.node 32 (.node 16 (.node 8 (.node 4 (.node 2 (.node 1 (.leaf 1049826909)
 (.leaf 1049826910))
 (.node 1 (.leaf 1049829175)
 (.leaf 1049830432)))
 (.node 2 (.node 1 (.leaf 1049837214)
 (.leaf 1049845545))
 (.node 1 (.leaf 1049850817)
 (.leaf 1049851068))))
 (.node 4 (.node 2 (.node 1 (.leaf 1049851069)
 (.leaf 1049855095))
 (.node 1 (.leaf 1049858148)
 (.leaf 1049865161)))
 (.node 2 (.node 1 (.leaf 1049866546)
 (.leaf 1049869943))
 (.node 1 (.leaf 1049876234)
 (.leaf 1049876235)))))
 (.node 8 (.node 4 (.node 2 (.node 1 (.leaf 1049877643)
 (.leaf 1049884287))
 (.node 1 (.leaf 1049887156)
 (.leaf 1049889257)))
 (.node 2 (.node 1 (.leaf 1049891460)
 (.leaf 1049893850))
 (.node 1 (.leaf 1049901400)
 (.leaf 1049903917))))
 (.node 4 (.node 2 (.node 1 (.leaf 1049904421)
 (.leaf 1049908447))
 (.node 1 (.leaf 1049917758)
 (.leaf 1049919183)))
 (.node 2 (.node 1 (.leaf 1049926566)
 (.leaf 1049927320))
 (.node 1 (.leaf 1049927321)
 (.leaf 1049928378))))))
 (.node 16 (.node 8 (.node 4 (.node 2 (.node 1 (.leaf 1049930667)
 (.leaf 1049939148))
 (.node 1 (.leaf 1049941665)
 (.leaf 1049941666)))
 (.node 2 (.node 1 (.leaf 1049945113)
 (.leaf 1049945440))
 (.node 1 (.leaf 1049951732)
 (.leaf 1049952537))))
 (.node 4 (.node 2 (.node 1 (.leaf 1049953620)
 (.leaf 1049960792))
 (.node 1 (.leaf 1049961495)
 (.leaf 1049964315)))
 (.node 2 (.node 1 (.leaf 1049970186)
 (.leaf 1049970355))
 (.node 1 (.leaf 1049970522)
 (.leaf 1049974179)))))
 (.node 8 (.node 4 (.node 2 (.node 1 (.leaf 1049975136)
 (.leaf 1049975941))
 (.node 1 (.leaf 1049977526)
 (.leaf 1049977527)))
 (.node 2 (.node 1 (.leaf 1049986301)
 (.leaf 1049986558))
 (.node 1 (.leaf 1049989480)
 (.leaf 1049990387))))
 (.node 4 (.node 2 (.node 1 (.leaf 1049995671)
 (.leaf 1049996905))
 (.node 1 (.leaf 1050002063)
 (.leaf 1050002064)))
 (.node 2 (.node 1 (.leaf 1050003397)
 (.leaf 1050006971))
 (.node 1 (.leaf 1050008607)
 (.leaf 1050011878)))))))
 (.node 32 (.node 16 (.node 8 (.node 4 (.node 2 (.node 1 (.leaf 1050012758)
 (.leaf 1050017163))
 (.node 1 (.leaf 1050024964)
 (.leaf 1050027229)))
 (.node 2 (.node 1 (.leaf 1050027732)
 (.leaf 1050029846))
 (.node 1 (.leaf 1050029847)
 (.leaf 1050030110))))
 (.node 4 (.node 2 (.node 1 (.leaf 1050039812)
 (.leaf 1050041070))
 (.node 1 (.leaf 1050041121)
 (.leaf 1050044342)))
 (.node 2 (.node 1 (.leaf 1050047110)
 (.leaf 1050049249))
 (.node 1 (.leaf 1050052395)
 (.leaf 1050052396)))))
 (.node 8 (.node 4 (.node 2 (.node 1 (.leaf 1050056422)
 (.leaf 1050063594))
 (.node 1 (.leaf 1050067897)
 (.leaf 1050069843)))
 (.node 2 (.node 1 (.leaf 1050070011)
 (.leaf 1050075548))
 (.node 1 (.leaf 1050079524)
 (.leaf 1050081109))))
 (.node 4 (.node 2 (.node 1 (.leaf 1050084330)
 (.leaf 1050085110))
 (.node 1 (.leaf 1050089389)
 (.leaf 1050092660)))
 (.node 2 (.node 1 (.leaf 1050094674)
 (.leaf 1050096435))
 (.node 1 (.leaf 1050096788)
 (.leaf 1050102727))))))
 (.node 16 (.node 8 (.node 4 (.node 2 (.node 1 (.leaf 1050108364)
 (.leaf 1050118103))
 (.node 1 (.leaf 1050122860)
 (.leaf 1050128144)))
 (.node 2 (.node 1 (.leaf 1050128145)
 (.leaf 1050132926))
 (.node 1 (.leaf 1050134183)
 (.leaf 1050135316))))
 (.node 4 (.node 2 (.node 1 (.leaf 1050135789)
 (.leaf 1050138903))
 (.node 1 (.leaf 1050139468)
 (.leaf 1050144250)))
 (.node 2 (.node 1 (.leaf 1050148227)
 (.leaf 1050153058))
 (.node 1 (.leaf 1050153059)
 (.leaf 1050159224)))))
 (.node 8 (.node 4 (.node 2 (.node 1 (.leaf 1050159225)
 (.leaf 1050160306))
 (.node 1 (.leaf 1050165137)
 (.leaf 1050166547)))
 (.node 2 (.node 1 (.leaf 1050171178)
 (.leaf 1050173191))
 (.node 1 (.leaf 1050178349)
 (.leaf 1050178350))))
 (.node 4 (.node 2 (.node 1 (.leaf 1050180741)
 (.leaf 1050181193))
 (.node 1 (.leaf 1050183106)
 (.leaf 1050185271)))
 (.node 2 (.node 1 (.leaf 1050187912)
 (.leaf 1050188391))
 (.node 1 (.leaf 1050190807)
 (.leaf 1050192695))))))))
 (.node 64 (.node 32 (.node 16 (.node 8 (.node 4 (.node 2 (.node 1 (.leaf 1050195840)
 (.leaf 1050197099))
 (.node 1 (.leaf 1050197476)
 (.leaf 1050201779)))
 (.node 2 (.node 1 (.leaf 1050203390)
 (.leaf 1050206536))
 (.node 1 (.leaf 1050222264)
 (.leaf 1050228555))))
 (.node 4 (.node 2 (.node 1 (.leaf 1050228556)
 (.leaf 1050231676))
 (.node 1 (.leaf 1050234897)
 (.leaf 1050235251)))
 (.node 2 (.node 1 (.leaf 1050241138)
 (.leaf 1050247431))
 (.node 1 (.leaf 1050248978)
 (.leaf 1050249695)))))
 (.node 8 (.node 4 (.node 2 (.node 1 (.leaf 1050251104)
 (.leaf 1050251457))
 (.node 1 (.leaf 1050253721)
 (.leaf 1050253722)))
 (.node 2 (.node 1 (.leaf 1050257244)
 (.leaf 1050257245))
 (.node 1 (.leaf 1050262026)
 (.leaf 1050262027))))
 (.node 4 (.node 2 (.node 1 (.leaf 1050269072)
 (.leaf 1050278762))
 (.node 1 (.leaf 1050279291)
 (.leaf 1050281403)))
 (.node 2 (.node 1 (.leaf 1050281404)
 (.leaf 1050284339))
 (.node 1 (.leaf 1050285103)
 (.leaf 1050285934))))))
 (.node 16 (.node 8 (.node 4 (.node 2 (.node 1 (.leaf 1050289155)
 (.leaf 1050299020))
 (.node 1 (.leaf 1050300278)
 (.leaf 1050305060)))
 (.node 2 (.node 1 (.leaf 1050307450)
 (.leaf 1050315579))
 (.node 1 (.leaf 1050316636)
 (.leaf 1050321040))))
 (.node 4 (.node 2 (.node 1 (.leaf 1050327458)
 (.leaf 1050328817))
 (.node 1 (.leaf 1050329218)
 (.leaf 1050329219)))
 (.node 2 (.node 1 (.leaf 1050334252)
 (.leaf 1050334253))
 (.node 1 (.leaf 1050337423)
 (.leaf 1050338480)))))
 (.node 8 (.node 4 (.node 2 (.node 1 (.leaf 1050338481)
 (.leaf 1050338530))
 (.node 1 (.leaf 1050342305)
 (.leaf 1050342306)))
 (.node 2 (.node 1 (.leaf 1050349050)
 (.leaf 1050350610))
 (.node 1 (.leaf 1050360047)
 (.leaf 1050360206))))
 (.node 4 (.node 2 (.node 1 (.leaf 1050360676)
 (.leaf 1050362439))
 (.node 1 (.leaf 1050365206)
 (.leaf 1050369484)))
 (.node 2 (.node 1 (.leaf 1050373008)
 (.leaf 1050379551))
 (.node 1 (.leaf 1050381363)
 (.leaf 1050381563)))))))
 (.node 32 (.node 16 (.node 8 (.node 4 (.node 2 (.node 1 (.leaf 1050381564)
 (.leaf 1050387100))
 (.node 1 (.leaf 1050387101)
 (.leaf 1050390271)))
 (.node 2 (.node 1 (.leaf 1050390623)
 (.leaf 1050391127))
 (.node 1 (.leaf 1050391128)
 (.leaf 1050402200))))
 (.node 4 (.node 2 (.node 1 (.leaf 1050404716)
 (.leaf 1050405950))
 (.node 1 (.leaf 1050407862)
 (.leaf 1050415034)))
 (.node 2 (.node 1 (.leaf 1050418395)
 (.leaf 1050422333))
 (.node 1 (.leaf 1050424975)
 (.leaf 1050428581)))))
 (.node 8 (.node 4 (.node 2 (.node 1 (.leaf 1050429883)
 (.leaf 1050439948))
 (.node 1 (.leaf 1050439949)
 (.leaf 1050443765)))
 (.node 2 (.node 1 (.leaf 1050449461)
 (.leaf 1050455047))
 (.node 1 (.leaf 1050455048)
 (.leaf 1050456154))))
 (.node 4 (.node 2 (.node 1 (.leaf 1050461654)
 (.leaf 1050465081))
 (.node 1 (.leaf 1050466197)
 (.leaf 1050467632)))
 (.node 2 (.node 1 (.leaf 1050469543)
 (.leaf 1050474124))
 (.node 1 (.leaf 1050492797)
 (.leaf 1050495313))))))
 (.node 16 (.node 8 (.node 4 (.node 2 (.node 1 (.leaf 1050496319)
 (.leaf 1050496320))
 (.node 1 (.leaf 1050496321)
 (.leaf 1050496907)))
 (.node 2 (.node 1 (.leaf 1050497705)
 (.leaf 1050501819))
 (.node 1 (.leaf 1050503014)
 (.leaf 1050503366))))
 (.node 4 (.node 2 (.node 1 (.leaf 1050505380)
 (.leaf 1050505715))
 (.node 1 (.leaf 1050511118)
 (.leaf 1050511822)))
 (.node 2 (.node 1 (.leaf 1050515446)
 (.leaf 1050515447))
 (.node 1 (.leaf 1050520667)
 (.leaf 1050521738)))))
 (.node 8 (.node 4 (.node 2 (.node 1 (.leaf 1050522241)
 (.leaf 1050524254))
 (.node 1 (.leaf 1050536837)
 (.leaf 1050543179)))
 (.node 2 (.node 1 (.leaf 1050545645)
 (.leaf 1050545646))
 (.node 1 (.leaf 1050553865)
 (.leaf 1050553874))))
 (.node 4 (.node 2 (.node 1 (.leaf 1050556144)
 (.leaf 1050563261))
 (.node 1 (.leaf 1050563262)
 (.leaf 1050568294)))
 (.node 2 (.node 1 (.leaf 1050569804)
 (.leaf 1050575215))
 (.node 1 (.leaf 1050575845)
 (.leaf 1050576650)))))))))
 (.node 128 (.node 64 (.node 32 (.node 16 (.node 8 (.node 4 (.node 2 (.node 1 (.leaf 1050581192)
 (.leaf 1050590037))
 (.node 1 (.leaf 1050590944)
 (.leaf 1050596240)))
 (.node 2 (.node 1 (.leaf 1050597487)
 (.leaf 1050598493))
 (.node 1 (.leaf 1050601514)
 (.leaf 1050605665))))
 (.node 4 (.node 2 (.node 1 (.leaf 1050606043)
 (.leaf 1050607301))
 (.node 1 (.leaf 1050616109)
 (.leaf 1050616110)))
 (.node 2 (.node 1 (.leaf 1050616815)
 (.leaf 1050619045))
 (.node 1 (.leaf 1050619632)
 (.leaf 1050623030)))))
 (.node 8 (.node 4 (.node 2 (.node 1 (.leaf 1050624162)
 (.leaf 1050629951))
 (.node 1 (.leaf 1050630202)
 (.leaf 1050634984)))
 (.node 2 (.node 1 (.leaf 1050651342)
 (.leaf 1050654110))
 (.node 1 (.leaf 1050656325)
 (.leaf 1050656374))))
 (.node 4 (.node 2 (.node 1 (.leaf 1050656375)
 (.leaf 1050657986))
 (.node 1 (.leaf 1050658952)
 (.leaf 1050662667)))
 (.node 2 (.node 1 (.leaf 1050664553)
 (.leaf 1050667782))
 (.node 1 (.leaf 1050668957)
 (.leaf 1050670367))))))
 (.node 16 (.node 8 (.node 4 (.node 2 (.node 1 (.leaf 1050670425)
 (.leaf 1050673236))
 (.node 1 (.leaf 1050673949)
 (.leaf 1050684058)))
 (.node 2 (.node 1 (.leaf 1050687580)
 (.leaf 1050688234))
 (.node 1 (.leaf 1050696640)
 (.leaf 1050706706))))
 (.node 4 (.node 2 (.node 1 (.leaf 1050706707)
 (.leaf 1050713350))
 (.node 1 (.leaf 1050718282)
 (.leaf 1050719289)))
 (.node 2 (.node 1 (.leaf 1050721806)
 (.leaf 1050725833))
 (.node 1 (.leaf 1050727090)
 (.leaf 1050730026)))))
 (.node 8 (.node 4 (.node 2 (.node 1 (.leaf 1050730614)
 (.leaf 1050732879))
 (.node 1 (.leaf 1050738165)
 (.leaf 1050744003)))
 (.node 2 (.node 1 (.leaf 1050744958)
 (.leaf 1050744959))
 (.node 1 (.leaf 1050754043)
 (.leaf 1050754521))))
 (.node 4 (.node 2 (.node 1 (.leaf 1050754522)
 (.leaf 1050757038))
 (.node 1 (.leaf 1050757039)
 (.leaf 1050762071)))
 (.node 2 (.node 1 (.leaf 1050764085)
 (.leaf 1050767608))
 (.node 1 (.leaf 1050769621)
 (.leaf 1050772485)))))))
 (.node 32 (.node 16 (.node 8 (.node 4 (.node 2 (.node 1 (.leaf 1050775828)
 (.leaf 1050775912))
 (.node 1 (.leaf 1050779058)
 (.leaf 1050781700)))
 (.node 2 (.node 1 (.leaf 1050783755)
 (.leaf 1050784406))
 (.node 1 (.leaf 1050786105)
 (.leaf 1050786398))))
 (.node 4 (.node 2 (.node 1 (.leaf 1050790861)
 (.leaf 1050791465))
 (.node 1 (.leaf 1050792271)
 (.leaf 1050794243)))
 (.node 2 (.node 1 (.leaf 1050795089)
 (.leaf 1050797303))
 (.node 1 (.leaf 1050800009)
 (.leaf 1050802337)))))
 (.node 8 (.node 4 (.node 2 (.node 1 (.leaf 1050817436)
 (.leaf 1050829851))
 (.node 1 (.leaf 1050832535)
 (.leaf 1050833374)))
 (.node 2 (.node 1 (.leaf 1050836311)
 (.leaf 1050838198))
 (.node 1 (.leaf 1050842182)
 (.leaf 1050844426))))
 (.node 4 (.node 2 (.node 1 (.leaf 1050846378)
 (.leaf 1050846669))
 (.node 1 (.leaf 1050850051)
 (.leaf 1050853486)))
 (.node 2 (.node 1 (.leaf 1050854933)
 (.leaf 1050857701))
 (.node 1 (.leaf 1050859715)
 (.leaf 1050862105))))))
 (.node 16 (.node 8 (.node 4 (.node 2 (.node 1 (.leaf 1050871190)
 (.leaf 1050872171))
 (.node 1 (.leaf 1050872801)
 (.leaf 1050874478)))
 (.node 2 (.node 1 (.leaf 1050878841)
 (.leaf 1050881231))
 (.node 1 (.leaf 1050882867)
 (.leaf 1050884578))))
 (.node 4 (.node 2 (.node 1 (.leaf 1050887691)
 (.leaf 1050893563))
 (.node 1 (.leaf 1050895450)
 (.leaf 1050895617)))
 (.node 2 (.node 1 (.leaf 1050897085)
 (.leaf 1050897966))
 (.node 1 (.leaf 1050897967)
 (.leaf 1050898260)))))
 (.node 8 (.node 4 (.node 2 (.node 1 (.leaf 1050900484)
 (.leaf 1050907529))
 (.node 1 (.leaf 1050914324)
 (.leaf 1050920515)))
 (.node 2 (.node 1 (.leaf 1050920691)
 (.leaf 1050928166))
 (.node 1 (.leaf 1050937896)
 (.leaf 1050945781))))
 (.node 4 (.node 2 (.node 1 (.leaf 1050945782)
 (.leaf 1050948466))
 (.node 1 (.leaf 1050950815)
 (.leaf 1050952073)))
 (.node 2 (.node 1 (.leaf 1050952577)
 (.leaf 1050953750))
 (.node 1 (.leaf 1050954338)
 (.leaf 1050954339))))))))
 (.node 64 (.node 32 (.node 16 (.node 8 (.node 4 (.node 2 (.node 1 (.leaf 1050954591)
 (.leaf 1050957735))
 (.node 1 (.leaf 1050957736)
 (.leaf 1050964907)))
 (.node 2 (.node 1 (.leaf 1050964908)
 (.leaf 1050968430))
 (.node 1 (.leaf 1050968431)
 (.leaf 1050974470))))
 (.node 4 (.node 2 (.node 1 (.leaf 1050977239)
 (.leaf 1050983530))
 (.node 1 (.leaf 1050983531)
 (.leaf 1050984638)))
 (.node 2 (.node 1 (.leaf 1050986752)
 (.leaf 1050996323))
 (.node 1 (.leaf 1050998378)
 (.leaf 1050998379)))))
 (.node 8 (.node 4 (.node 2 (.node 1 (.leaf 1051002405)
 (.leaf 1051002816))
 (.node 1 (.leaf 1051003159)
 (.leaf 1051004267)))
 (.node 2 (.node 1 (.leaf 1051006012)
 (.leaf 1051008067))
 (.node 1 (.leaf 1051009535)
 (.leaf 1051010710))))
 (.node 4 (.node 2 (.node 1 (.leaf 1051014092)
 (.leaf 1051021279))
 (.node 1 (.leaf 1051021631)
 (.leaf 1051023481)))
 (.node 2 (.node 1 (.leaf 1051028502)
 (.leaf 1051031849))
 (.node 1 (.leaf 1051032604)
 (.leaf 1051035435))))))
 (.node 16 (.node 8 (.node 4 (.node 2 (.node 1 (.leaf 1051038896)
 (.leaf 1051039021))
 (.node 1 (.leaf 1051042419)
 (.leaf 1051050975)))
 (.node 2 (.node 1 (.leaf 1051053869)
 (.leaf 1051059028))
 (.node 1 (.leaf 1051059147)
 (.leaf 1051063558))))
 (.node 4 (.node 2 (.node 1 (.leaf 1051065319)
 (.leaf 1051066493))
 (.node 1 (.leaf 1051067081)
 (.leaf 1051072190)))
 (.node 2 (.node 1 (.leaf 1051079670)
 (.leaf 1051082055))
 (.node 1 (.leaf 1051085402)
 (.leaf 1051086836)))))
 (.node 8 (.node 4 (.node 2 (.node 1 (.leaf 1051088924)
 (.leaf 1051089227))
 (.node 1 (.leaf 1051094261)
 (.leaf 1051094814)))
 (.node 2 (.node 1 (.leaf 1051096776)
 (.leaf 1051102196))
 (.node 1 (.leaf 1051109359)
 (.leaf 1051109360))))
 (.node 4 (.node 2 (.node 1 (.leaf 1051115651)
 (.leaf 1051121104))
 (.node 1 (.leaf 1051122572)
 (.leaf 1051123452)))
 (.node 2 (.node 1 (.leaf 1051125567)
 (.leaf 1051127478))
 (.node 1 (.leaf 1051128234)
 (.leaf 1051129870)))))))
 (.node 32 (.node 16 (.node 8 (.node 4 (.node 2 (.node 1 (.leaf 1051133922)
 (.leaf 1051134525))
 (.node 1 (.leaf 1051134526)
 (.leaf 1051139558)))
 (.node 2 (.node 1 (.leaf 1051139559)
 (.leaf 1051146605))
 (.node 1 (.leaf 1051148678)
 (.leaf 1051149625))))
 (.node 4 (.node 2 (.node 1 (.leaf 1051149792)
 (.leaf 1051152342))
 (.node 1 (.leaf 1051152343)
 (.leaf 1051164136)))
 (.node 2 (.node 1 (.leaf 1051169077)
 (.leaf 1051172274))
 (.node 1 (.leaf 1051175772)
 (.leaf 1051176888)))))
 (.node 8 (.node 4 (.node 2 (.node 1 (.leaf 1051178649)
 (.leaf 1051179824))
 (.node 1 (.leaf 1051179825)
 (.leaf 1051180410)))
 (.node 2 (.node 1 (.leaf 1051182466)
 (.leaf 1051184731))
 (.node 1 (.leaf 1051184857)
 (.leaf 1051189487))))
 (.node 4 (.node 2 (.node 1 (.leaf 1051191149)
 (.leaf 1051195342))
 (.node 1 (.leaf 1051196736)
 (.leaf 1051197440)))
 (.node 2 (.node 1 (.leaf 1051199201)
 (.leaf 1051199202))
 (.node 1 (.leaf 1051201567)
 (.leaf 1051203077))))))
 (.node 16 (.node 8 (.node 4 (.node 2 (.node 1 (.leaf 1051203983)
 (.leaf 1051203984))
 (.node 1 (.leaf 1051204990)
 (.leaf 1051228898)))
 (.node 2 (.node 1 (.leaf 1051230860)
 (.leaf 1051232672))
 (.node 1 (.leaf 1051232673)
 (.leaf 1051234727))))
 (.node 4 (.node 2 (.node 1 (.leaf 1051236195)
 (.leaf 1051236196))
 (.node 1 (.leaf 1051237076)
 (.leaf 1051237369)))
 (.node 2 (.node 1 (.leaf 1051237886)
 (.leaf 1051238209))
 (.node 1 (.leaf 1051242738)
 (.leaf 1051247544)))))
 (.node 8 (.node 4 (.node 2 (.node 1 (.leaf 1051249283)
 (.leaf 1051252755))
 (.node 1 (.leaf 1051253434)
 (.leaf 1051256159)))
 (.node 2 (.node 1 (.leaf 1051258932)
 (.leaf 1051259214))
 (.node 1 (.leaf 1051260354)
 (.leaf 1051260355))))
 (.node 4 (.node 2 (.node 1 (.leaf 1051261361)
 (.leaf 1051267476))
 (.node 1 (.leaf 1051267904)
 (.leaf 1051269490)))
 (.node 2 (.node 1 (.leaf 1051272837)
 (.leaf 1051282878))
 (.node 1 (.leaf 1051285520)
 (.leaf 1051285521)))))))))))
 (.node 512 (.node 256 (.node 128 (.node 64 (.node 32 (.node 16 (.node 8 (.node 4 (.node 2 (.node 1 (.leaf 1051288456)
 (.leaf 1051290805))
 (.node 1 (.leaf 1051292567)
 (.leaf 1051293184)))
 (.node 2 (.node 1 (.leaf 1051293741)
 (.leaf 1051294328))
 (.node 1 (.leaf 1051299613)
 (.leaf 1051300620))))
 (.node 4 (.node 2 (.node 1 (.leaf 1051304394)
 (.leaf 1051304395))
 (.node 1 (.leaf 1051305250)
 (.leaf 1051310685)))
 (.node 2 (.node 1 (.leaf 1051310686)
 (.leaf 1051311567))
 (.node 1 (.leaf 1051316348)
 (.leaf 1051316977)))))
 (.node 8 (.node 4 (.node 2 (.node 1 (.leaf 1051318740)
 (.leaf 1051323269))
 (.node 1 (.leaf 1051339073)
 (.leaf 1051339778)))
 (.node 2 (.node 1 (.leaf 1051342144)
 (.leaf 1051344240))
 (.node 1 (.leaf 1051351287)
 (.leaf 1051356512))))
 (.node 4 (.node 2 (.node 1 (.leaf 1051358501)
 (.leaf 1051361018))
 (.node 1 (.leaf 1051361019)
 (.leaf 1051361772)))
 (.node 2 (.node 1 (.leaf 1051361773)
 (.leaf 1051363207))
 (.node 1 (.leaf 1051364792)
 (.leaf 1051367749))))))
 (.node 16 (.node 8 (.node 4 (.node 2 (.node 1 (.leaf 1051371211)
 (.leaf 1051376117))
 (.node 1 (.leaf 1051376118)
 (.leaf 1051377794)))
 (.node 2 (.node 1 (.leaf 1051379943)
 (.leaf 1051382408))
 (.node 1 (.leaf 1051393331)
 (.leaf 1051398766))))
 (.node 4 (.node 2 (.node 1 (.leaf 1051398767)
 (.leaf 1051399785))
 (.node 1 (.leaf 1051404806)
 (.leaf 1051405309)))
 (.node 2 (.node 1 (.leaf 1051407071)
 (.leaf 1051408245))
 (.node 1 (.leaf 1051408833)
 (.leaf 1051413413)))))
 (.node 8 (.node 4 (.node 2 (.node 1 (.leaf 1051416382)
 (.leaf 1051417641))
 (.node 1 (.leaf 1051419151)
 (.leaf 1051421264)))
 (.node 2 (.node 1 (.leaf 1051421416)
 (.leaf 1051423932))
 (.node 1 (.leaf 1051426449)
 (.leaf 1051428663))))
 (.node 4 (.node 2 (.node 1 (.leaf 1051431028)
 (.leaf 1051431382))
 (.node 1 (.leaf 1051433495)
 (.leaf 1051433496)))
 (.node 2 (.node 1 (.leaf 1051435912)
 (.leaf 1051438611))
 (.node 1 (.leaf 1051451027)
 (.leaf 1051452999)))))))
 (.node 32 (.node 16 (.node 8 (.node 4 (.node 2 (.node 1 (.leaf 1051455390)
 (.leaf 1051461680))
 (.node 1 (.leaf 1051461681)
 (.leaf 1051461682)))
 (.node 2 (.node 1 (.leaf 1051463736)
 (.leaf 1051464575))
 (.node 1 (.leaf 1051465204)
 (.leaf 1051465770))))
 (.node 4 (.node 2 (.node 1 (.leaf 1051471747)
 (.leaf 1051474264))
 (.node 1 (.leaf 1051478469)
 (.leaf 1051481814)))
 (.node 2 (.node 1 (.leaf 1051483072)
 (.leaf 1051492069))
 (.node 1 (.leaf 1051492686)
 (.leaf 1051499430)))))
 (.node 8 (.node 4 (.node 2 (.node 1 (.leaf 1051503783)
 (.leaf 1051512012))
 (.node 1 (.leaf 1051512013)
 (.leaf 1051512873)))
 (.node 2 (.node 1 (.leaf 1051513825)
 (.leaf 1051515868))
 (.node 1 (.leaf 1051523338)
 (.leaf 1051523925))))
 (.node 4 (.node 2 (.node 1 (.leaf 1051524595)
 (.leaf 1051532145))
 (.node 1 (.leaf 1051532146)
 (.leaf 1051533554)))
 (.node 2 (.node 1 (.leaf 1051538437)
 (.leaf 1051541658))
 (.node 1 (.leaf 1051542211)
 (.leaf 1051543470))))))
 (.node 16 (.node 8 (.node 4 (.node 2 (.node 1 (.leaf 1051548252)
 (.leaf 1051549762))
 (.node 1 (.leaf 1051552404)
 (.leaf 1051552782)))
 (.node 2 (.node 1 (.leaf 1051560247)
 (.leaf 1051567377))
 (.node 1 (.leaf 1051567378)
 (.leaf 1051570267))))
 (.node 4 (.node 2 (.node 1 (.leaf 1051574927)
 (.leaf 1051580590))
 (.node 1 (.leaf 1051580766)
 (.leaf 1051581471)))
 (.node 2 (.node 1 (.leaf 1051581764)
 (.leaf 1051590027))
 (.node 1 (.leaf 1051591285)
 (.leaf 1051593802)))))
 (.node 8 (.node 4 (.node 2 (.node 1 (.leaf 1051601351)
 (.leaf 1051602610))
 (.node 1 (.leaf 1051603239)
 (.leaf 1051606384)))
 (.node 2 (.node 1 (.leaf 1051611668)
 (.leaf 1051627146))
 (.node 1 (.leaf 1051627272)
 (.leaf 1051631464))))
 (.node 4 (.node 2 (.node 1 (.leaf 1051634318)
 (.leaf 1051637842))
 (.node 1 (.leaf 1051639016)
 (.leaf 1051639604)))
 (.node 2 (.node 1 (.leaf 1051640358)
 (.leaf 1051640359))
 (.node 1 (.leaf 1051647908)
 (.leaf 1051648663))))))))
 (.node 64 (.node 32 (.node 16 (.node 8 (.node 4 (.node 2 (.node 1 (.leaf 1051655457)
 (.leaf 1051660491))
 (.node 1 (.leaf 1051663007)
 (.leaf 1051663008)))
 (.node 2 (.node 1 (.leaf 1051663009)
 (.leaf 1051667789))
 (.node 1 (.leaf 1051667790)
 (.leaf 1051670254))))
 (.node 4 (.node 2 (.node 1 (.leaf 1051670255)
 (.leaf 1051670256))
 (.node 1 (.leaf 1051674206)
 (.leaf 1051674483)))
 (.node 2 (.node 1 (.leaf 1051679063)
 (.leaf 1051681882))
 (.node 1 (.leaf 1051687166)
 (.leaf 1051689180)))))
 (.node 8 (.node 4 (.node 2 (.node 1 (.leaf 1051689785)
 (.leaf 1051694465))
 (.node 1 (.leaf 1051696562)
 (.leaf 1051700756)))
 (.node 2 (.node 1 (.leaf 1051701260)
 (.leaf 1051705790))
 (.node 1 (.leaf 1051709313)
 (.leaf 1051714647))))
 (.node 4 (.node 2 (.node 1 (.leaf 1051717994)
 (.leaf 1051719631))
 (.node 1 (.leaf 1051721405)
 (.leaf 1051722776)))
 (.node 2 (.node 1 (.leaf 1051723406)
 (.leaf 1051729948))
 (.node 1 (.leaf 1051733723)
 (.leaf 1051734048))))))
 (.node 16 (.node 8 (.node 4 (.node 2 (.node 1 (.leaf 1051734730)
 (.leaf 1051738505))
 (.node 1 (.leaf 1051738605)
 (.leaf 1051738606)))
 (.node 2 (.node 1 (.leaf 1051742784)
 (.leaf 1051743538))
 (.node 1 (.leaf 1051745149)
 (.leaf 1051747061))))
 (.node 4 (.node 2 (.node 1 (.leaf 1051748370)
 (.leaf 1051749074))
 (.node 1 (.leaf 1051749075)
 (.leaf 1051752276)))
 (.node 2 (.node 1 (.leaf 1051753537)
 (.leaf 1051754813))
 (.node 1 (.leaf 1051761508)
 (.leaf 1051761682)))))
 (.node 8 (.node 4 (.node 2 (.node 1 (.leaf 1051763670)
 (.leaf 1051764175))
 (.node 1 (.leaf 1051764217)
 (.leaf 1051770590)))
 (.node 2 (.node 1 (.leaf 1051770591)
 (.leaf 1051778770))
 (.node 1 (.leaf 1051780973)
 (.leaf 1051782545))))
 (.node 4 (.node 2 (.node 1 (.leaf 1051782546)
 (.leaf 1051783804))
 (.node 1 (.leaf 1051784936)
 (.leaf 1051788635)))
 (.node 2 (.node 1 (.leaf 1051790514)
 (.leaf 1051793567))
 (.node 1 (.leaf 1051804859)
 (.leaf 1051806453)))))))
 (.node 32 (.node 16 (.node 8 (.node 4 (.node 2 (.node 1 (.leaf 1051806955)
 (.leaf 1051814002))
 (.node 1 (.leaf 1051814003)
 (.leaf 1051815059)))
 (.node 2 (.node 1 (.leaf 1051816015)
 (.leaf 1051821754))
 (.node 1 (.leaf 1051824068)
 (.leaf 1051826586))))
 (.node 4 (.node 2 (.node 1 (.leaf 1051837910)
 (.leaf 1051844202))
 (.node 1 (.leaf 1051845184)
 (.leaf 1051847826)))
 (.node 2 (.node 1 (.leaf 1051851877)
 (.leaf 1051852759))
 (.node 1 (.leaf 1051858043)
 (.leaf 1051865543)))))
 (.node 8 (.node 4 (.node 2 (.node 1 (.leaf 1051866851)
 (.leaf 1051867983))
 (.node 1 (.leaf 1051868486)
 (.leaf 1051876581)))
 (.node 2 (.node 1 (.leaf 1051883058)
 (.leaf 1051889499))
 (.node 1 (.leaf 1051889500)
 (.leaf 1051892520))))
 (.node 4 (.node 2 (.node 1 (.leaf 1051892521)
 (.leaf 1051897050))
 (.node 1 (.leaf 1051902083)
 (.leaf 1051902084)))
 (.node 2 (.node 1 (.leaf 1051904600)
 (.leaf 1051909483))
 (.node 1 (.leaf 1051919246)
 (.leaf 1051919700))))))
 (.node 16 (.node 8 (.node 4 (.node 2 (.node 1 (.leaf 1051926745)
 (.leaf 1051928507))
 (.node 1 (.leaf 1051928759)
 (.leaf 1051929009)))
 (.node 2 (.node 1 (.leaf 1051935554)
 (.leaf 1051937314))
 (.node 1 (.leaf 1051949898)
 (.leaf 1051952414))))
 (.node 4 (.node 2 (.node 1 (.leaf 1051954125)
 (.leaf 1051954511))
 (.node 1 (.leaf 1051960745)
 (.leaf 1051961852)))
 (.node 2 (.node 1 (.leaf 1051963739)
 (.leaf 1051964997))
 (.node 1 (.leaf 1051964998)
 (.leaf 1051964999)))))
 (.node 8 (.node 4 (.node 2 (.node 1 (.leaf 1051966206)
 (.leaf 1051969024))
 (.node 1 (.leaf 1051969289)
 (.leaf 1051986640)))
 (.node 2 (.node 1 (.leaf 1051989107)
 (.leaf 1051989224))
 (.node 1 (.leaf 1051995196)
 (.leaf 1051995800))))
 (.node 4 (.node 2 (.node 1 (.leaf 1051995801)
 (.leaf 1051997712))
 (.node 1 (.leaf 1052011429)
 (.leaf 1052011866)))
 (.node 2 (.node 1 (.leaf 1052015329)
 (.leaf 1052019053))
 (.node 1 (.leaf 1052019523)
 (.leaf 1052021620)))))))))
 (.node 128 (.node 64 (.node 32 (.node 16 (.node 8 (.node 4 (.node 2 (.node 1 (.leaf 1052025395)
 (.leaf 1052025396))
 (.node 1 (.leaf 1052042659)
 (.leaf 1052045529)))
 (.node 2 (.node 1 (.leaf 1052057950)
 (.leaf 1052059369))
 (.node 1 (.leaf 1052064655)
 (.leaf 1052065660))))
 (.node 4 (.node 2 (.node 1 (.leaf 1052069373)
 (.leaf 1052073714))
 (.node 1 (.leaf 1052078244)
 (.leaf 1052080592)))
 (.node 2 (.node 1 (.leaf 1052084534)
 (.leaf 1052085794))
 (.node 1 (.leaf 1052086171)
 (.leaf 1052086398)))))
 (.node 8 (.node 4 (.node 2 (.node 1 (.leaf 1052087051)
 (.leaf 1052087052))
 (.node 1 (.leaf 1052090611)
 (.leaf 1052098125)))
 (.node 2 (.node 1 (.leaf 1052099886)
 (.leaf 1052102906))
 (.node 1 (.leaf 1052103241)
 (.leaf 1052104668))))
 (.node 4 (.node 2 (.node 1 (.leaf 1052105927)
 (.leaf 1052110893))
 (.node 1 (.leaf 1052122032)
 (.leaf 1052122669)))
 (.node 2 (.node 1 (.leaf 1052127166)
 (.leaf 1052133030))
 (.node 1 (.leaf 1052136376)
 (.leaf 1052136377))))))
 (.node 16 (.node 8 (.node 4 (.node 2 (.node 1 (.leaf 1052141158)
 (.leaf 1052145940))
 (.node 1 (.leaf 1052146192)
 (.leaf 1052148708)))
 (.node 2 (.node 1 (.leaf 1052149546)
 (.leaf 1052156928))
 (.node 1 (.leaf 1052159806)
 (.leaf 1052166323))))
 (.node 4 (.node 2 (.node 1 (.leaf 1052166324)
 (.leaf 1052172028))
 (.node 1 (.leaf 1052173371)
 (.leaf 1052175449)))
 (.node 2 (.node 1 (.leaf 1052179078)
 (.leaf 1052191490))
 (.node 1 (.leaf 1052191867)
 (.leaf 1052193755)))))
 (.node 8 (.node 4 (.node 2 (.node 1 (.leaf 1052196623)
 (.leaf 1052197341))
 (.node 1 (.leaf 1052201191)
 (.leaf 1052201556)))
 (.node 2 (.node 1 (.leaf 1052202248)
 (.leaf 1052204073))
 (.node 1 (.leaf 1052206589)
 (.leaf 1052206590))))
 (.node 4 (.node 2 (.node 1 (.leaf 1052210365)
 (.leaf 1052211598))
 (.node 1 (.leaf 1052214475)
 (.leaf 1052217662)))
 (.node 2 (.node 1 (.leaf 1052223047)
 (.leaf 1052224835))
 (.node 1 (.leaf 1052229239)
 (.leaf 1052236116)))))))
 (.node 32 (.node 16 (.node 8 (.node 4 (.node 2 (.node 1 (.leaf 1052236789)
 (.leaf 1052242476))
 (.node 1 (.leaf 1052246352)
 (.leaf 1052247659)))
 (.node 2 (.node 1 (.leaf 1052247660)
 (.leaf 1052258305))
 (.node 1 (.leaf 1052262155)
 (.leaf 1052266986))))
 (.node 4 (.node 2 (.node 1 (.leaf 1052266987)
 (.leaf 1052270260))
 (.node 1 (.leaf 1052272021)
 (.leaf 1052276953)))
 (.node 2 (.node 1 (.leaf 1052279066)
 (.leaf 1052279570))
 (.node 1 (.leaf 1052284604)
 (.leaf 1052292153)))))
 (.node 8 (.node 4 (.node 2 (.node 1 (.leaf 1052292154)
 (.leaf 1052298445))
 (.node 1 (.leaf 1052299200)
 (.leaf 1052300206)))
 (.node 2 (.node 1 (.leaf 1052307253)
 (.leaf 1052308512))
 (.node 1 (.leaf 1052315682)
 (.leaf 1052325045))))
 (.node 4 (.node 2 (.node 1 (.leaf 1052329902)
 (.leaf 1052333048))
 (.node 1 (.leaf 1052333677)
 (.leaf 1052334095)))
 (.node 2 (.node 1 (.leaf 1052337200)
 (.leaf 1052342485))
 (.node 1 (.leaf 1052351544)
 (.leaf 1052351545))))))
 (.node 16 (.node 8 (.node 4 (.node 2 (.node 1 (.leaf 1052357585)
 (.leaf 1052363624))
 (.node 1 (.leaf 1052370670)
 (.leaf 1052370671)))
 (.node 2 (.node 1 (.leaf 1052373287)
 (.leaf 1052380233))
 (.node 1 (.leaf 1052392816)
 (.leaf 1052395333))))
 (.node 4 (.node 2 (.node 1 (.leaf 1052395334)
 (.leaf 1052397448))
 (.node 1 (.leaf 1052397699)
 (.leaf 1052398562)))
 (.node 2 (.node 1 (.leaf 1052400794)
 (.leaf 1052401204))
 (.node 1 (.leaf 1052404141)
 (.leaf 1052414899)))))
 (.node 8 (.node 4 (.node 2 (.node 1 (.leaf 1052417982)
 (.leaf 1052419995))
 (.node 1 (.leaf 1052420877)
 (.leaf 1052427042)))
 (.node 2 (.node 1 (.leaf 1052428048)
 (.leaf 1052428049))
 (.node 1 (.leaf 1052432830)
 (.leaf 1052433149))))
 (.node 4 (.node 2 (.node 1 (.leaf 1052436857)
 (.leaf 1052441613))
 (.node 1 (.leaf 1052444406)
 (.leaf 1052447972)))
 (.node 2 (.node 1 (.leaf 1052448181)
 (.leaf 1052448898))
 (.node 1 (.leaf 1052451956)
 (.leaf 1052455732))))))))
 (.node 64 (.node 32 (.node 16 (.node 8 (.node 4 (.node 2 (.node 1 (.leaf 1052456990)
 (.leaf 1052457619))
 (.node 1 (.leaf 1052457693)
 (.leaf 1052465797)))
 (.node 2 (.node 1 (.leaf 1052468313)
 (.leaf 1052472676))
 (.node 1 (.leaf 1052474605)
 (.leaf 1052477856))))
 (.node 4 (.node 2 (.node 1 (.leaf 1052478255)
 (.leaf 1052478380))
 (.node 1 (.leaf 1052485761)
 (.leaf 1052487818)))
 (.node 2 (.node 1 (.leaf 1052490460)
 (.leaf 1052492474))
 (.node 1 (.leaf 1052494989)
 (.leaf 1052494990)))))
 (.node 8 (.node 4 (.node 2 (.node 1 (.leaf 1052497481)
 (.leaf 1052504553))
 (.node 1 (.leaf 1052508579)
 (.leaf 1052508580)))
 (.node 2 (.node 1 (.leaf 1052518645)
 (.leaf 1052518646))
 (.node 1 (.leaf 1052519904)
 (.leaf 1052522962))))
 (.node 4 (.node 2 (.node 1 (.leaf 1052523578)
 (.leaf 1052523679))
 (.node 1 (.leaf 1052524938)
 (.leaf 1052530977)))
 (.node 2 (.node 1 (.leaf 1052535422)
 (.leaf 1052538023))
 (.node 1 (.leaf 1052541610)
 (.leaf 1052542804))))))
 (.node 16 (.node 8 (.node 4 (.node 2 (.node 1 (.leaf 1052542806)
 (.leaf 1052544818))
 (.node 1 (.leaf 1052544819)
 (.leaf 1052553878)))
 (.node 2 (.node 1 (.leaf 1052556898)
 (.leaf 1052557149))
 (.node 1 (.leaf 1052558105)
 (.leaf 1052558106))))
 (.node 4 (.node 2 (.node 1 (.leaf 1052564800)
 (.leaf 1052571495))
 (.node 1 (.leaf 1052572752)
 (.leaf 1052576603)))
 (.node 2 (.node 1 (.leaf 1052578339)
 (.leaf 1052581057))
 (.node 1 (.leaf 1052581560)
 (.leaf 1052588608)))))
 (.node 8 (.node 4 (.node 2 (.node 1 (.leaf 1052589110)
 (.leaf 1052591812))
 (.node 1 (.leaf 1052594143)
 (.leaf 1052594646)))
 (.node 2 (.node 1 (.leaf 1052598798)
 (.leaf 1052600564))
 (.node 1 (.leaf 1052602530)
 (.leaf 1052604628))))
 (.node 4 (.node 2 (.node 1 (.leaf 1052604964)
 (.leaf 1052606726))
 (.node 1 (.leaf 1052611658)
 (.leaf 1052617296)))
 (.node 2 (.node 1 (.leaf 1052619308)
 (.leaf 1052619309))
 (.node 1 (.leaf 1052621322)
 (.leaf 1052624543)))))))
 (.node 32 (.node 16 (.node 8 (.node 4 (.node 2 (.node 1 (.leaf 1052626503)
 (.leaf 1052627160))
 (.node 1 (.leaf 1052636925)
 (.leaf 1052637303)))
 (.node 2 (.node 1 (.leaf 1052638436)
 (.leaf 1052644474))
 (.node 1 (.leaf 1052644475)
 (.leaf 1052645607))))
 (.node 4 (.node 2 (.node 1 (.leaf 1052651824)
 (.leaf 1052668320))
 (.node 1 (.leaf 1052669640)
 (.leaf 1052669641)))
 (.node 2 (.node 1 (.leaf 1052670673)
 (.leaf 1052675005))
 (.node 1 (.leaf 1052676367)
 (.leaf 1052677242)))))
 (.node 8 (.node 4 (.node 2 (.node 1 (.leaf 1052679077)
 (.leaf 1052684740))
 (.node 1 (.leaf 1052685999)
 (.leaf 1052689320)))
 (.node 2 (.node 1 (.leaf 1052701098)
 (.leaf 1052703023))
 (.node 1 (.leaf 1052703614)
 (.leaf 1052705375))))
 (.node 4 (.node 2 (.node 1 (.leaf 1052705376)
 (.leaf 1052707390))
 (.node 1 (.leaf 1052710158)
 (.leaf 1052711517)))
 (.node 2 (.node 1 (.leaf 1052713680)
 (.leaf 1052715417))
 (.node 1 (.leaf 1052717425)
 (.leaf 1052717427))))))
 (.node 16 (.node 8 (.node 4 (.node 2 (.node 1 (.leaf 1052724503)
 (.leaf 1052731313))
 (.node 1 (.leaf 1052731675)
 (.leaf 1052734652)))
 (.node 2 (.node 1 (.leaf 1052736749)
 (.leaf 1052738552))
 (.node 1 (.leaf 1052738846)
 (.leaf 1052744132))))
 (.node 4 (.node 2 (.node 1 (.leaf 1052744823)
 (.leaf 1052746815))
 (.node 1 (.leaf 1052746816)
 (.leaf 1052747654)))
 (.node 2 (.node 1 (.leaf 1052750171)
 (.leaf 1052750172))
 (.node 1 (.leaf 1052757721)
 (.leaf 1052765270)))))
 (.node 8 (.node 4 (.node 2 (.node 1 (.leaf 1052765271)
 (.leaf 1052766554))
 (.node 1 (.leaf 1052770304)
 (.leaf 1052772316)))
 (.node 2 (.node 1 (.leaf 1052772317)
 (.leaf 1052776746))
 (.node 1 (.leaf 1052779011)
 (.leaf 1052782886))))
 (.node 4 (.node 2 (.node 1 (.leaf 1052784032)
 (.leaf 1052789493))
 (.node 1 (.leaf 1052795030)
 (.leaf 1052802264)))
 (.node 2 (.node 1 (.leaf 1052803858)
 (.leaf 1052805787))
 (.node 1 (.leaf 1052808052)
 (.leaf 1052810569))))))))))
 (.node 256 (.node 128 (.node 64 (.node 32 (.node 16 (.node 8 (.node 4 (.node 2 (.node 1 (.leaf 1052810570)
 (.leaf 1052812482))
 (.node 1 (.leaf 1052814594)
 (.leaf 1052815602)))
 (.node 2 (.node 1 (.leaf 1052815603)
 (.leaf 1052817565))
 (.node 1 (.leaf 1052819528)
 (.leaf 1052826927))))
 (.node 4 (.node 2 (.node 1 (.leaf 1052829444)
 (.leaf 1052830085))
 (.node 1 (.leaf 1052835030)
 (.leaf 1052839258)))
 (.node 2 (.node 1 (.leaf 1052842605)
 (.leaf 1052850835))
 (.node 1 (.leaf 1052852092)
 (.leaf 1052853367)))))
 (.node 8 (.node 4 (.node 2 (.node 1 (.leaf 1052858384)
 (.leaf 1052864676))
 (.node 1 (.leaf 1052865975)
 (.leaf 1052866387)))
 (.node 2 (.node 1 (.leaf 1052870966)
 (.leaf 1052870967))
 (.node 1 (.leaf 1052870968)
 (.leaf 1052874322))))
 (.node 4 (.node 2 (.node 1 (.leaf 1052880361)
 (.leaf 1052881033))
 (.node 1 (.leaf 1052881034)
 (.leaf 1052893616)))
 (.node 2 (.node 1 (.leaf 1052903809)
 (.leaf 1052906199))
 (.node 1 (.leaf 1052906200)
 (.leaf 1052921298))))))
 (.node 16 (.node 8 (.node 4 (.node 2 (.node 1 (.leaf 1052925074)
 (.leaf 1052925326))
 (.node 1 (.leaf 1052929628)
 (.leaf 1052929687)))
 (.node 2 (.node 1 (.leaf 1052932171)
 (.leaf 1052938075))
 (.node 1 (.leaf 1052942061)
 (.leaf 1052946128))))
 (.node 4 (.node 2 (.node 1 (.leaf 1052946465)
 (.leaf 1052946466))
 (.node 1 (.leaf 1052948037)
 (.leaf 1052950240)))
 (.node 2 (.node 1 (.leaf 1052957789)
 (.leaf 1052958906))
 (.node 1 (.leaf 1052959047)
 (.leaf 1052959048)))))
 (.node 8 (.node 4 (.node 2 (.node 1 (.leaf 1052959753)
 (.leaf 1052966093))
 (.node 1 (.leaf 1052968359)
 (.leaf 1052971027)))
 (.node 2 (.node 1 (.leaf 1052972435)
 (.leaf 1052973141))
 (.node 1 (.leaf 1052976664)
 (.leaf 1052981697))))
 (.node 4 (.node 2 (.node 1 (.leaf 1052990504)
 (.leaf 1052990505))
 (.node 1 (.leaf 1052991763)
 (.leaf 1052994699)))
 (.node 2 (.node 1 (.leaf 1052997047)
 (.leaf 1052997099))
 (.node 1 (.leaf 1052998549)
 (.leaf 1053005184)))))))
 (.node 32 (.node 16 (.node 8 (.node 4 (.node 2 (.node 1 (.leaf 1053011895)
 (.leaf 1053011896))
 (.node 1 (.leaf 1053019999)
 (.leaf 1053020703)))
 (.node 2 (.node 1 (.leaf 1053021961)
 (.leaf 1053021962))
 (.node 1 (.leaf 1053026552)
 (.leaf 1053030519))))
 (.node 4 (.node 2 (.node 1 (.leaf 1053032909)
 (.leaf 1053034797))
 (.node 1 (.leaf 1053037666)
 (.leaf 1053040081)))
 (.node 2 (.node 1 (.leaf 1053040082)
 (.leaf 1053058453))
 (.node 1 (.leaf 1053059711)
 (.leaf 1053064744)))))
 (.node 8 (.node 4 (.node 2 (.node 1 (.leaf 1053072293)
 (.leaf 1053072294))
 (.node 1 (.leaf 1053073551)
 (.leaf 1053073552)))
 (.node 2 (.node 1 (.leaf 1053076320)
 (.leaf 1053077327))
 (.node 1 (.leaf 1053077662)
 (.leaf 1053082359))))
 (.node 4 (.node 2 (.node 1 (.leaf 1053086940)
 (.leaf 1053092931))
 (.node 1 (.leaf 1053093264)
 (.leaf 1053097459)))
 (.node 2 (.node 1 (.leaf 1053097460)
 (.leaf 1053105613))
 (.node 1 (.leaf 1053105614)
 (.leaf 1053107023))))))
 (.node 16 (.node 8 (.node 4 (.node 2 (.node 1 (.leaf 1053120411)
 (.leaf 1053124722))
 (.node 1 (.leaf 1053125142)
 (.leaf 1053133320)))
 (.node 2 (.node 1 (.leaf 1053135208)
 (.leaf 1053139298))
 (.node 1 (.leaf 1053140493)
 (.leaf 1053142758))))
 (.node 4 (.node 2 (.node 1 (.leaf 1053143428)
 (.leaf 1053152823))
 (.node 1 (.leaf 1053164568)
 (.leaf 1053165407)))
 (.node 2 (.node 1 (.leaf 1053172202)
 (.leaf 1053173964))
 (.node 1 (.leaf 1053175373)
 (.leaf 1053179248)))))
 (.node 8 (.node 4 (.node 2 (.node 1 (.leaf 1053188056)
 (.leaf 1053191496))
 (.node 1 (.leaf 1053191832)
 (.leaf 1053193090)))
 (.node 2 (.node 1 (.leaf 1053198123)
 (.leaf 1053205043))
 (.node 1 (.leaf 1053206510)
 (.leaf 1053208189))))
 (.node 4 (.node 2 (.node 1 (.leaf 1053214480)
 (.leaf 1053220823))
 (.node 1 (.leaf 1053221275)
 (.leaf 1053223289)))
 (.node 2 (.node 1 (.leaf 1053223290)
 (.leaf 1053224169))
 (.node 1 (.leaf 1053231342)
 (.leaf 1053233355))))))))
 (.node 64 (.node 32 (.node 16 (.node 8 (.node 4 (.node 2 (.node 1 (.leaf 1053233356)
 (.leaf 1053235871))
 (.node 1 (.leaf 1053237432)
 (.leaf 1053240905)))
 (.node 2 (.node 1 (.leaf 1053240906)
 (.leaf 1053243018))
 (.node 1 (.leaf 1053243019)
 (.leaf 1053258522))))
 (.node 4 (.node 2 (.node 1 (.leaf 1053265442)
 (.leaf 1053267329))
 (.node 1 (.leaf 1053270789)
 (.leaf 1053273620)))
 (.node 2 (.node 1 (.leaf 1053274375)
 (.leaf 1053275633))
 (.node 1 (.leaf 1053284417)
 (.leaf 1053292784)))))
 (.node 8 (.node 4 (.node 2 (.node 1 (.leaf 1053293753)
 (.leaf 1053301303))
 (.node 1 (.leaf 1053303342)
 (.leaf 1053305380)))
 (.node 2 (.node 1 (.leaf 1053307174)
 (.leaf 1053307845))
 (.node 1 (.leaf 1053307846)
 (.leaf 1053307847))))
 (.node 4 (.node 2 (.node 1 (.leaf 1053323952)
 (.leaf 1053325211))
 (.node 1 (.leaf 1053328566)
 (.leaf 1053329992)))
 (.node 2 (.node 1 (.leaf 1053336535)
 (.leaf 1053340729))
 (.node 1 (.leaf 1053344839)
 (.leaf 1053344840))))))
 (.node 16 (.node 8 (.node 4 (.node 2 (.node 1 (.leaf 1053360442)
 (.leaf 1053364217))
 (.node 1 (.leaf 1053369250)
 (.leaf 1053374787)))
 (.node 2 (.node 1 (.leaf 1053376902)
 (.leaf 1053378309))
 (.node 1 (.leaf 1053378311)
 (.leaf 1053378477))))
 (.node 4 (.node 2 (.node 1 (.leaf 1053379015)
 (.leaf 1053379016))
 (.node 1 (.leaf 1053384350)
 (.leaf 1053384351)))
 (.node 2 (.node 1 (.leaf 1053391900)
 (.leaf 1053394416))
 (.node 1 (.leaf 1053398442)
 (.leaf 1053398443)))))
 (.node 8 (.node 4 (.node 2 (.node 1 (.leaf 1053399449)
 (.leaf 1053399450))
 (.node 1 (.leaf 1053401563)
 (.leaf 1053405741)))
 (.node 2 (.node 1 (.leaf 1053407838)
 (.leaf 1053408509))
 (.node 1 (.leaf 1053410585)
 (.leaf 1053412661))))
 (.node 4 (.node 2 (.node 1 (.leaf 1053414449)
 (.leaf 1053426226))
 (.node 1 (.leaf 1053429774)
 (.leaf 1053430735)))
 (.node 2 (.node 1 (.leaf 1053434680)
 (.leaf 1053437198))
 (.node 1 (.leaf 1053437199)
 (.leaf 1053441728)))))))
 (.node 32 (.node 16 (.node 8 (.node 4 (.node 2 (.node 1 (.leaf 1053441729)
 (.leaf 1053443490))
 (.node 1 (.leaf 1053445957)
 (.leaf 1053447364)))
 (.node 2 (.node 1 (.leaf 1053449781)
 (.leaf 1053456072))
 (.node 1 (.leaf 1053458590)
 (.leaf 1053469913))))
 (.node 4 (.node 2 (.node 1 (.leaf 1053471852)
 (.leaf 1053472850))
 (.node 1 (.leaf 1053474946)
 (.leaf 1053474947)))
 (.node 2 (.node 1 (.leaf 1053474948)
 (.leaf 1053494274))
 (.node 1 (.leaf 1053498628)
 (.leaf 1053499106)))))
 (.node 8 (.node 4 (.node 2 (.node 1 (.leaf 1053500302)
 (.leaf 1053505145))
 (.node 1 (.leaf 1053505146)
 (.leaf 1053508535)))
 (.node 2 (.node 1 (.leaf 1053511488)
 (.leaf 1053513601))
 (.node 1 (.leaf 1053515011)
 (.leaf 1053521084))))
 (.node 4 (.node 2 (.node 1 (.leaf 1053525279)
 (.leaf 1053527796))
 (.node 1 (.leaf 1053531780)
 (.leaf 1053535345)))
 (.node 2 (.node 1 (.leaf 1053536402)
 (.leaf 1053542055))
 (.node 1 (.leaf 1053542139)
 (.leaf 1053544153))))))
 (.node 16 (.node 8 (.node 4 (.node 2 (.node 1 (.leaf 1053546250)
 (.leaf 1053549186))
 (.node 1 (.leaf 1053550444)
 (.leaf 1053557994)))
 (.node 2 (.node 1 (.leaf 1053563581)
 (.leaf 1053566802))
 (.node 1 (.leaf 1053572264)
 (.leaf 1053573094))))
 (.node 4 (.node 2 (.node 1 (.leaf 1053575610)
 (.leaf 1053575611))
 (.node 1 (.leaf 1053575612)
 (.leaf 1053577556)))
 (.node 2 (.node 1 (.leaf 1053581247)
 (.leaf 1053582304))
 (.node 1 (.leaf 1053587564)
 (.leaf 1053588999)))))
 (.node 8 (.node 4 (.node 2 (.node 1 (.leaf 1053592345)
 (.leaf 1053592387))
 (.node 1 (.leaf 1053599517)
 (.leaf 1053601908)))
 (.node 2 (.node 1 (.leaf 1053605810)
 (.leaf 1053610276))
 (.node 1 (.leaf 1053613358)
 (.leaf 1053613862))))
 (.node 4 (.node 2 (.node 1 (.leaf 1053619650)
 (.leaf 1053635857))
 (.node 1 (.leaf 1053641042)
 (.leaf 1053646074)))
 (.node 2 (.node 1 (.leaf 1053646075)
 (.leaf 1053652115))
 (.node 1 (.leaf 1053660722)
 (.leaf 1053662181)))))))))
 (.node 128 (.node 64 (.node 32 (.node 16 (.node 8 (.node 4 (.node 2 (.node 1 (.leaf 1053663690)
 (.leaf 1053668221))
 (.node 1 (.leaf 1053669328)
 (.leaf 1053672675)))
 (.node 2 (.node 1 (.leaf 1053680803)
 (.leaf 1053682565))
 (.node 1 (.leaf 1053688857)
 (.leaf 1053693050))))
 (.node 4 (.node 2 (.node 1 (.leaf 1053707102)
 (.leaf 1053708989))
 (.node 1 (.leaf 1053716186)
 (.leaf 1053716187)))
 (.node 2 (.node 1 (.leaf 1053716538)
 (.leaf 1053716539))
 (.node 1 (.leaf 1053722176)
 (.leaf 1053725346)))))
 (.node 8 (.node 4 (.node 2 (.node 1 (.leaf 1053727931)
 (.leaf 1053728618))
 (.node 1 (.leaf 1053728719)
 (.leaf 1053734196)))
 (.node 2 (.node 1 (.leaf 1053734993)
 (.leaf 1053736268))
 (.node 1 (.leaf 1053736269)
 (.leaf 1053740698))))
 (.node 4 (.node 2 (.node 1 (.leaf 1053746548)
 (.leaf 1053751770))
 (.node 1 (.leaf 1053751771)
 (.leaf 1053766450)))
 (.node 2 (.node 1 (.leaf 1053770595)
 (.leaf 1053773087))
 (.node 1 (.leaf 1053776434)
 (.leaf 1053776936))))))
 (.node 16 (.node 8 (.node 4 (.node 2 (.node 1 (.leaf 1053776937)
 (.leaf 1053779352))
 (.node 1 (.leaf 1053782599)
 (.leaf 1053787002)))
 (.node 2 (.node 1 (.leaf 1053787003)
 (.leaf 1053790528))
 (.node 1 (.leaf 1053791230)
 (.leaf 1053805123))))
 (.node 4 (.node 2 (.node 1 (.leaf 1053806296)
 (.leaf 1053807136))
 (.node 1 (.leaf 1053814685)
 (.leaf 1053814686)))
 (.node 2 (.node 1 (.leaf 1053814687)
 (.leaf 1053820977))
 (.node 1 (.leaf 1053822236)
 (.leaf 1053824249)))))
 (.node 8 (.node 4 (.node 2 (.node 1 (.leaf 1053824771)
 (.leaf 1053839851))
 (.node 1 (.leaf 1053839852)
 (.leaf 1053843374)))
 (.node 2 (.node 1 (.leaf 1053848659)
 (.leaf 1053852434))
 (.node 1 (.leaf 1053854050)
 (.leaf 1053857467))))
 (.node 4 (.node 2 (.node 1 (.leaf 1053857468)
 (.leaf 1053860110))
 (.node 1 (.leaf 1053872063)
 (.leaf 1053874554)))
 (.node 2 (.node 1 (.leaf 1053874555)
 (.leaf 1053875084))
 (.node 1 (.leaf 1053877599)
 (.leaf 1053877600)))))))
 (.node 32 (.node 16 (.node 8 (.node 4 (.node 2 (.node 1 (.leaf 1053886407)
 (.leaf 1053889276))
 (.node 1 (.leaf 1053890183)
 (.leaf 1053890392)))
 (.node 2 (.node 1 (.leaf 1053893580)
 (.leaf 1053905753))
 (.node 1 (.leaf 1053910316)
 (.leaf 1053913252))))
 (.node 4 (.node 2 (.node 1 (.leaf 1053917866)
 (.leaf 1053918983))
 (.node 1 (.leaf 1053921640)
 (.leaf 1053927931)))
 (.node 2 (.node 1 (.leaf 1053927932)
 (.leaf 1053927933))
 (.node 1 (.leaf 1053937092)
 (.leaf 1053948902)))))
 (.node 8 (.node 4 (.node 2 (.node 1 (.leaf 1053949070)
 (.leaf 1053952469))
 (.node 1 (.leaf 1053953181)
 (.leaf 1053955110)))
 (.node 2 (.node 1 (.leaf 1053958130)
 (.leaf 1053958131))
 (.node 1 (.leaf 1053958132)
 (.leaf 1053959389))))
 (.node 4 (.node 2 (.node 1 (.leaf 1053963163)
 (.leaf 1053963868))
 (.node 1 (.leaf 1053967191)
 (.leaf 1053980779)))
 (.node 2 (.node 1 (.leaf 1053982541)
 (.leaf 1053984429))
 (.node 1 (.leaf 1053986652)
 (.leaf 1053989538))))))
 (.node 16 (.node 8 (.node 4 (.node 2 (.node 1 (.leaf 1053990997)
 (.leaf 1053996384))
 (.node 1 (.leaf 1053998395)
 (.leaf 1053998396)))
 (.node 2 (.node 1 (.leaf 1053998397)
 (.leaf 1053999050))
 (.node 1 (.leaf 1054003428)
 (.leaf 1054004034))))
 (.node 4 (.node 2 (.node 1 (.leaf 1054005946)
 (.leaf 1054006449))
 (.node 1 (.leaf 1054010727)
 (.leaf 1054013810)))
 (.node 2 (.node 1 (.leaf 1054020206)
 (.leaf 1054021509))
 (.node 1 (.leaf 1054026079)
 (.leaf 1054027169)))))
 (.node 8 (.node 4 (.node 2 (.node 1 (.leaf 1054028595)
 (.leaf 1054029852))
 (.node 1 (.leaf 1054029853)
 (.leaf 1054030810)))
 (.node 2 (.node 1 (.leaf 1054034157)
 (.leaf 1054035893))
 (.node 1 (.leaf 1054038662)
 (.leaf 1054041806))))
 (.node 4 (.node 2 (.node 1 (.leaf 1054044197)
 (.leaf 1054044198))
 (.node 1 (.leaf 1054053761)
 (.leaf 1054054767)))
 (.node 2 (.node 1 (.leaf 1054060052)
 (.leaf 1054068860))
 (.node 1 (.leaf 1054078423)
 (.leaf 1054078926))))))))
 (.node 64 (.node 32 (.node 16 (.node 8 (.node 4 (.node 2 (.node 1 (.leaf 1054081255)
 (.leaf 1054088825))
 (.node 1 (.leaf 1054091510)
 (.leaf 1054091812)))
 (.node 2 (.node 1 (.leaf 1054101575)
 (.leaf 1054101576))
 (.node 1 (.leaf 1054101577)
 (.leaf 1054101980))))
 (.node 4 (.node 2 (.node 1 (.leaf 1054103087)
 (.leaf 1054104445))
 (.node 1 (.leaf 1054108085)
 (.leaf 1054111138)))
 (.node 2 (.node 1 (.leaf 1054112900)
 (.leaf 1054126742))
 (.node 1 (.leaf 1054126993)
 (.leaf 1054133453)))))
 (.node 8 (.node 4 (.node 2 (.node 1 (.leaf 1054139325)
 (.leaf 1054149392))
 (.node 1 (.leaf 1054151782)
 (.leaf 1054154423)))
 (.node 2 (.node 1 (.leaf 1054154424)
 (.leaf 1054154425))
 (.node 1 (.leaf 1054162813)
 (.leaf 1054173298))))
 (.node 4 (.node 2 (.node 1 (.leaf 1054175450)
 (.leaf 1054178080))
 (.node 1 (.leaf 1054178876)
 (.leaf 1054184774)))
 (.node 2 (.node 1 (.leaf 1054187642)
 (.leaf 1054192173))
 (.node 1 (.leaf 1054198162)
 (.leaf 1054199219))))))
 (.node 16 (.node 8 (.node 4 (.node 2 (.node 1 (.leaf 1054199723)
 (.leaf 1054200982))
 (.node 1 (.leaf 1054206853)
 (.leaf 1054219855)))
 (.node 2 (.node 1 (.leaf 1054227506)
 (.leaf 1054229922))
 (.node 1 (.leaf 1054232019)
 (.leaf 1054234116))))
 (.node 4 (.node 2 (.node 1 (.leaf 1054236212)
 (.leaf 1054237333))
 (.node 1 (.leaf 1054245021)
 (.leaf 1054246455)))
 (.node 2 (.node 1 (.leaf 1054250998)
 (.leaf 1054256178))
 (.node 1 (.leaf 1054262636)
 (.leaf 1054271446)))))
 (.node 8 (.node 4 (.node 2 (.node 1 (.leaf 1054272703)
 (.leaf 1054276353))
 (.node 1 (.leaf 1054280252)
 (.leaf 1054280253)))
 (.node 2 (.node 1 (.leaf 1054280254)
 (.leaf 1054285185))
 (.node 1 (.leaf 1054291881)
 (.leaf 1054292836))))
 (.node 4 (.node 2 (.node 1 (.leaf 1054294347)
 (.leaf 1054302400))
 (.node 1 (.leaf 1054305419)
 (.leaf 1054309613)))
 (.node 2 (.node 1 (.leaf 1054316743)
 (.leaf 1054316744))
 (.node 1 (.leaf 1054319008)
 (.leaf 1054322249)))))))
 (.node 32 (.node 16 (.node 8 (.node 4 (.node 2 (.node 1 (.leaf 1054323118)
 (.leaf 1054323119))
 (.node 1 (.leaf 1054325350)
 (.leaf 1054328697)))
 (.node 2 (.node 1 (.leaf 1054340653)
 (.leaf 1054345432))
 (.node 1 (.leaf 1054345684)
 (.leaf 1054350416))))
 (.node 4 (.node 2 (.node 1 (.leaf 1054360784)
 (.leaf 1054367075))
 (.node 1 (.leaf 1054368334)
 (.leaf 1054374499)))
 (.node 2 (.node 1 (.leaf 1054376722)
 (.leaf 1054380916))
 (.node 1 (.leaf 1054385949)
 (.leaf 1054387208)))))
 (.node 8 (.node 4 (.node 2 (.node 1 (.leaf 1054388466)
 (.leaf 1054388467))
 (.node 1 (.leaf 1054392996)
 (.leaf 1054392997)))
 (.node 2 (.node 1 (.leaf 1054397435)
 (.leaf 1054401217))
 (.node 1 (.leaf 1054406397)
 (.leaf 1054410779))))
 (.node 4 (.node 2 (.node 1 (.leaf 1054414035)
 (.leaf 1054415897))
 (.node 1 (.leaf 1054417155)
 (.leaf 1054418666)))
 (.node 2 (.node 1 (.leaf 1054420855)
 (.leaf 1054421358))
 (.node 1 (.leaf 1054427054)
 (.leaf 1054429990))))))
 (.node 16 (.node 8 (.node 4 (.node 2 (.node 1 (.leaf 1054435804)
 (.leaf 1054441314))
 (.node 1 (.leaf 1054448025)
 (.leaf 1054456414)))
 (.node 2 (.node 1 (.leaf 1054459769)
 (.leaf 1054460188))
 (.node 1 (.leaf 1054460189)
 (.leaf 1054464802))))
 (.node 4 (.node 2 (.node 1 (.leaf 1054466983)
 (.leaf 1054471515))
 (.node 1 (.leaf 1054472622)
 (.leaf 1054473736)))
 (.node 2 (.node 1 (.leaf 1054474534)
 (.leaf 1054474836))
 (.node 1 (.leaf 1054477553)
 (.leaf 1054482384)))))
 (.node 8 (.node 4 (.node 2 (.node 1 (.leaf 1054484096)
 (.leaf 1054486411))
 (.node 1 (.leaf 1054488080)
 (.leaf 1054488123)))
 (.node 2 (.node 1 (.leaf 1054491268)
 (.leaf 1054491645))
 (.node 1 (.leaf 1054491646)
 (.leaf 1054491647))))
 (.node 4 (.node 2 (.node 1 (.leaf 1054493126)
 (.leaf 1054493659))
 (.node 1 (.leaf 1054496050)
 (.leaf 1054502744)))
 (.node 2 (.node 1 (.leaf 1054515553)
 (.leaf 1054520008))
 (.node 1 (.leaf 1054526879)
 (.leaf 1054531911))))))))))))
 (.node 1024 (.node 512 (.node 256 (.node 128 (.node 64 (.node 32 (.node 16 (.node 8 (.node 4 (.node 2 (.node 1 (.leaf 1054531912)
 (.leaf 1054537952))
 (.node 1 (.leaf 1054540970)
 (.leaf 1054540971)))
 (.node 2 (.node 1 (.leaf 1054540972)
 (.leaf 1054541978))
 (.node 1 (.leaf 1054542397)
 (.leaf 1054546256))))
 (.node 4 (.node 2 (.node 1 (.leaf 1054550835)
 (.leaf 1054552233))
 (.node 1 (.leaf 1054556070)
 (.leaf 1054557412)))
 (.node 2 (.node 1 (.leaf 1054561796)
 (.leaf 1054562109))
 (.node 1 (.leaf 1054562110)
 (.leaf 1054564628)))))
 (.node 8 (.node 4 (.node 2 (.node 1 (.leaf 1054565382)
 (.leaf 1054568100))
 (.node 1 (.leaf 1054570163)
 (.leaf 1054570164)))
 (.node 2 (.node 1 (.leaf 1054571757)
 (.leaf 1054573855))
 (.node 1 (.leaf 1054574944)
 (.leaf 1054579727))))
 (.node 4 (.node 2 (.node 1 (.leaf 1054585787)
 (.leaf 1054588817))
 (.node 1 (.leaf 1054589792)
 (.leaf 1054607409)))
 (.node 2 (.node 1 (.leaf 1054608415)
 (.leaf 1054611603))
 (.node 1 (.leaf 1054614204)
 (.leaf 1054614959))))))
 (.node 16 (.node 8 (.node 4 (.node 2 (.node 1 (.leaf 1054618775)
 (.leaf 1054619890))
 (.node 1 (.leaf 1054619891)
 (.leaf 1054619892)))
 (.node 2 (.node 1 (.leaf 1054619992)
 (.leaf 1054625150))
 (.node 1 (.leaf 1054629304)
 (.leaf 1054630729))))
 (.node 4 (.node 2 (.node 1 (.leaf 1054632575)
 (.leaf 1054635510))
 (.node 1 (.leaf 1054637608)
 (.leaf 1054639496)))
 (.node 2 (.node 1 (.leaf 1054642683)
 (.leaf 1054645073))
 (.node 1 (.leaf 1054646667)
 (.leaf 1054646668)))))
 (.node 8 (.node 4 (.node 2 (.node 1 (.leaf 1054647464)
 (.leaf 1054649084))
 (.node 1 (.leaf 1054655476)
 (.leaf 1054658999)))
 (.node 2 (.node 1 (.leaf 1054663052)
 (.leaf 1054664032))
 (.node 1 (.leaf 1054666260)
 (.leaf 1054676615))))
 (.node 4 (.node 2 (.node 1 (.leaf 1054677107)
 (.leaf 1054681900))
 (.node 1 (.leaf 1054682906)
 (.leaf 1054682907)))
 (.node 2 (.node 1 (.leaf 1054684315)
 (.leaf 1054687520))
 (.node 1 (.leaf 1054688946)
 (.leaf 1054691295)))))))
 (.node 32 (.node 16 (.node 8 (.node 4 (.node 2 (.node 1 (.leaf 1054694483)
 (.leaf 1054697587))
 (.node 1 (.leaf 1054704045)
 (.leaf 1054709225)))
 (.node 2 (.node 1 (.leaf 1054709834)
 (.leaf 1054710589))
 (.node 1 (.leaf 1054713609)
 (.leaf 1054717195))))
 (.node 4 (.node 2 (.node 1 (.leaf 1054719984)
 (.leaf 1054720655))
 (.node 1 (.leaf 1054721976)
 (.leaf 1054723171)))
 (.node 2 (.node 1 (.leaf 1054723173)
 (.leaf 1054731225))
 (.node 1 (.leaf 1054733237)
 (.leaf 1054738271)))))
 (.node 8 (.node 4 (.node 2 (.node 1 (.leaf 1054738272)
 (.leaf 1054747078))
 (.node 1 (.leaf 1054747079)
 (.leaf 1054758403)))
 (.node 2 (.node 1 (.leaf 1054758404)
 (.leaf 1054762933))
 (.node 1 (.leaf 1054762934)
 (.leaf 1054763436))))
 (.node 4 (.node 2 (.node 1 (.leaf 1054767631)
 (.leaf 1054769510))
 (.node 1 (.leaf 1054770986)
 (.leaf 1054773363)))
 (.node 2 (.node 1 (.leaf 1054773503)
 (.leaf 1054774502))
 (.node 1 (.leaf 1054775181)
 (.leaf 1054777362))))))
 (.node 16 (.node 8 (.node 4 (.node 2 (.node 1 (.leaf 1054782940)
 (.leaf 1054784307))
 (.node 1 (.leaf 1054787722)
 (.leaf 1054790062)))
 (.node 2 (.node 1 (.leaf 1054790063)
 (.leaf 1054791623))
 (.node 1 (.leaf 1054791707)
 (.leaf 1054794056))))
 (.node 4 (.node 2 (.node 1 (.leaf 1054794895)
 (.leaf 1054797286))
 (.node 1 (.leaf 1054798870)
 (.leaf 1054798878)))
 (.node 2 (.node 1 (.leaf 1054799677)
 (.leaf 1054803703))
 (.node 1 (.leaf 1054806974)
 (.leaf 1054807325)))))
 (.node 8 (.node 4 (.node 2 (.node 1 (.leaf 1054807327)
 (.leaf 1054812511))
 (.node 1 (.leaf 1054814020)
 (.leaf 1054822388)))
 (.node 2 (.node 1 (.leaf 1054830755)
 (.leaf 1054833901))
 (.node 1 (.leaf 1054833902)
 (.leaf 1054836921))))
 (.node 4 (.node 2 (.node 1 (.leaf 1054839353)
 (.leaf 1054843908))
 (.node 1 (.leaf 1054843966)
 (.leaf 1054843967)))
 (.node 2 (.node 1 (.leaf 1054847491)
 (.leaf 1054847742))
 (.node 1 (.leaf 1054850678)
 (.leaf 1054852776))))))))
 (.node 64 (.node 32 (.node 16 (.node 8 (.node 4 (.node 2 (.node 1 (.leaf 1054853115)
 (.leaf 1054854034))
 (.node 1 (.leaf 1054855418)
 (.leaf 1054859940)))
 (.node 2 (.node 1 (.leaf 1054861583)
 (.leaf 1054863638))
 (.node 1 (.leaf 1054866219)
 (.leaf 1054867456))))
 (.node 4 (.node 2 (.node 1 (.leaf 1054869804)
 (.leaf 1054869805))
 (.node 1 (.leaf 1054870140)
 (.leaf 1054872594)))
 (.node 2 (.node 1 (.leaf 1054872959)
 (.leaf 1054874585))
 (.node 1 (.leaf 1054875781)
 (.leaf 1054876180)))))
 (.node 8 (.node 4 (.node 2 (.node 1 (.leaf 1054876181)
 (.leaf 1054882723))
 (.node 1 (.leaf 1054886750)
 (.leaf 1054890525)))
 (.node 2 (.node 1 (.leaf 1054904366)
 (.leaf 1054904869))
 (.node 1 (.leaf 1054909399)
 (.leaf 1054909400))))
 (.node 4 (.node 2 (.node 1 (.leaf 1054910908)
 (.leaf 1054910909))
 (.node 1 (.leaf 1054914432)
 (.leaf 1054915270)))
 (.node 2 (.node 1 (.leaf 1054920303)
 (.leaf 1054924498))
 (.node 1 (.leaf 1054927853)
 (.leaf 1054929104))))))
 (.node 16 (.node 8 (.node 4 (.node 2 (.node 1 (.leaf 1054930370)
 (.leaf 1054930371))
 (.node 1 (.leaf 1054932048)
 (.leaf 1054940730)))
 (.node 2 (.node 1 (.leaf 1054944715)
 (.leaf 1054945436))
 (.node 1 (.leaf 1054947080)
 (.leaf 1054947903))))
 (.node 4 (.node 2 (.node 1 (.leaf 1054949446)
 (.leaf 1054950293))
 (.node 1 (.leaf 1054951886)
 (.leaf 1054952683)))
 (.node 2 (.node 1 (.leaf 1054952684)
 (.leaf 1054958473))
 (.node 1 (.leaf 1054967984)
 (.leaf 1054967985)))))
 (.node 8 (.node 4 (.node 2 (.node 1 (.leaf 1054974678)
 (.leaf 1054984896))
 (.node 1 (.leaf 1054984897)
 (.leaf 1054991188)))
 (.node 2 (.node 1 (.leaf 1054991943)
 (.leaf 1054996640))
 (.node 1 (.leaf 1055001253)
 (.leaf 1055005028))))
 (.node 4 (.node 2 (.node 1 (.leaf 1055005859)
 (.leaf 1055007964))
 (.node 1 (.leaf 1055007965)
 (.leaf 1055008149)))
 (.node 2 (.node 1 (.leaf 1055010062)
 (.leaf 1055011320))
 (.node 1 (.leaf 1055015724)
 (.leaf 1055019625)))))))
 (.node 32 (.node 16 (.node 8 (.node 4 (.node 2 (.node 1 (.leaf 1055020733)
 (.leaf 1055023211))
 (.node 1 (.leaf 1055024356)
 (.leaf 1055025589)))
 (.node 2 (.node 1 (.leaf 1055026001)
 (.leaf 1055027993))
 (.node 1 (.leaf 1055029187)
 (.leaf 1055029188))))
 (.node 4 (.node 2 (.node 1 (.leaf 1055030395)
 (.leaf 1055034222))
 (.node 1 (.leaf 1055035228)
 (.leaf 1055038273)))
 (.node 2 (.node 1 (.leaf 1055045295)
 (.leaf 1055048314))
 (.node 1 (.leaf 1055050670)
 (.leaf 1055060394)))))
 (.node 8 (.node 4 (.node 2 (.node 1 (.leaf 1055060395)
 (.leaf 1055067104))
 (.node 1 (.leaf 1055067105)
 (.leaf 1055069454)))
 (.node 2 (.node 1 (.leaf 1055072977)
 (.leaf 1055078009))
 (.node 1 (.leaf 1055082203)
 (.leaf 1055085559))))
 (.node 4 (.node 2 (.node 1 (.leaf 1055085560)
 (.leaf 1055085561))
 (.node 1 (.leaf 1055086834)
 (.leaf 1055088076)))
 (.node 2 (.node 1 (.leaf 1055089754)
 (.leaf 1055090592))
 (.node 1 (.leaf 1055091197)
 (.leaf 1055091766))))))
 (.node 16 (.node 8 (.node 4 (.node 2 (.node 1 (.leaf 1055091767)
 (.leaf 1055093537))
 (.node 1 (.leaf 1055095098)
 (.leaf 1055098520)))
 (.node 2 (.node 1 (.leaf 1055100055)
 (.leaf 1055101708))
 (.node 1 (.leaf 1055103276)
 (.leaf 1055103277))))
 (.node 4 (.node 2 (.node 1 (.leaf 1055104098)
 (.leaf 1055105692))
 (.node 1 (.leaf 1055105693)
 (.leaf 1055109972)))
 (.node 2 (.node 1 (.leaf 1055121950)
 (.leaf 1055125824))
 (.node 1 (.leaf 1055131990)
 (.leaf 1055135891)))))
 (.node 8 (.node 4 (.node 2 (.node 1 (.leaf 1055135892)
 (.leaf 1055143022))
 (.node 1 (.leaf 1055143944)
 (.leaf 1055146764)))
 (.node 2 (.node 1 (.leaf 1055146964)
 (.leaf 1055149313))
 (.node 1 (.leaf 1055154766)
 (.leaf 1055159378))))
 (.node 4 (.node 2 (.node 1 (.leaf 1055161056)
 (.leaf 1055161057))
 (.node 1 (.leaf 1055163153)
 (.leaf 1055166090)))
 (.node 2 (.node 1 (.leaf 1055166091)
 (.leaf 1055167809))
 (.node 1 (.leaf 1055168187)
 (.leaf 1055169446)))))))))
 (.node 128 (.node 64 (.node 32 (.node 16 (.node 8 (.node 4 (.node 2 (.node 1 (.leaf 1055172331)
 (.leaf 1055173829))
 (.node 1 (.leaf 1055175754)
 (.leaf 1055176031)))
 (.node 2 (.node 1 (.leaf 1055178673)
 (.leaf 1055180204))
 (.node 1 (.leaf 1055180962)
 (.leaf 1055182196))))
 (.node 4 (.node 2 (.node 1 (.leaf 1055182607)
 (.leaf 1055183392))
 (.node 1 (.leaf 1055183790)
 (.leaf 1055205097)))
 (.node 2 (.node 1 (.leaf 1055211389)
 (.leaf 1055218938))
 (.node 1 (.leaf 1055224475)
 (.leaf 1055225649)))))
 (.node 8 (.node 4 (.node 2 (.node 1 (.leaf 1055231521)
 (.leaf 1055236554))
 (.node 1 (.leaf 1055238098)
 (.leaf 1055240748)))
 (.node 2 (.node 1 (.leaf 1055240749)
 (.leaf 1055244104))
 (.node 1 (.leaf 1055244356)
 (.leaf 1055246621))))
 (.node 4 (.node 2 (.node 1 (.leaf 1055248299)
 (.leaf 1055248785))
 (.node 1 (.leaf 1055249137)
 (.leaf 1055249304)))
 (.node 2 (.node 1 (.leaf 1055251453)
 (.leaf 1055253122))
 (.node 1 (.leaf 1055256184)
 (.leaf 1055256310))))))
 (.node 16 (.node 8 (.node 4 (.node 2 (.node 1 (.leaf 1055258650)
 (.leaf 1055258700))
 (.node 1 (.leaf 1055260293)
 (.leaf 1055260294)))
 (.node 2 (.node 1 (.leaf 1055261091)
 (.leaf 1055261116))
 (.node 1 (.leaf 1055261117)
 (.leaf 1055262726))))
 (.node 4 (.node 2 (.node 1 (.leaf 1055263533)
 (.leaf 1055265873))
 (.node 1 (.leaf 1055282608)
 (.leaf 1055286886)))
 (.node 2 (.node 1 (.leaf 1055289301)
 (.leaf 1055293178))
 (.node 1 (.leaf 1055301985)
 (.leaf 1055301987)))))
 (.node 8 (.node 4 (.node 2 (.node 1 (.leaf 1055308277)
 (.leaf 1055313729))
 (.node 1 (.leaf 1055313730)
 (.leaf 1055318343)))
 (.node 2 (.node 1 (.leaf 1055318344)
 (.leaf 1055322118))
 (.node 1 (.leaf 1055325054)
 (.leaf 1055327151))))
 (.node 4 (.node 2 (.node 1 (.leaf 1055327408)
 (.leaf 1055328410))
 (.node 1 (.leaf 1055328829)
 (.leaf 1055329466)))
 (.node 2 (.node 1 (.leaf 1055329760)
 (.leaf 1055332415))
 (.node 1 (.leaf 1055335204)
 (.leaf 1055335205)))))))
 (.node 32 (.node 16 (.node 8 (.node 4 (.node 2 (.node 1 (.leaf 1055337197)
 (.leaf 1055337219))
 (.node 1 (.leaf 1055338391)
 (.leaf 1055338791)))
 (.node 2 (.node 1 (.leaf 1055340035)
 (.leaf 1055341244))
 (.node 1 (.leaf 1055367957)
 (.leaf 1055370772))))
 (.node 4 (.node 2 (.node 1 (.leaf 1055378322)
 (.leaf 1055379497))
 (.node 1 (.leaf 1055385033)
 (.leaf 1055390905)))
 (.node 2 (.node 1 (.leaf 1055395938)
 (.leaf 1055395939))
 (.node 1 (.leaf 1055400133)
 (.leaf 1055402147)))))
 (.node 8 (.node 4 (.node 2 (.node 1 (.leaf 1055403488)
 (.leaf 1055406004))
 (.node 1 (.leaf 1055407681)
 (.leaf 1055407682)))
 (.node 2 (.node 1 (.leaf 1055408521)
 (.leaf 1055410735))
 (.node 1 (.leaf 1055414024)
 (.leaf 1055416490))))
 (.node 4 (.node 2 (.node 1 (.leaf 1055416491)
 (.leaf 1055418955))
 (.node 1 (.leaf 1055429878)
 (.leaf 1055434741)))
 (.node 2 (.node 1 (.leaf 1055434863)
 (.leaf 1055446614))
 (.node 1 (.leaf 1055449960)
 (.leaf 1055449961))))))
 (.node 16 (.node 8 (.node 4 (.node 2 (.node 1 (.leaf 1055454703)
 (.leaf 1055460529))
 (.node 1 (.leaf 1055461788)
 (.leaf 1055468080)))
 (.node 2 (.node 1 (.leaf 1055473532)
 (.leaf 1055473533))
 (.node 1 (.leaf 1055478145)
 (.leaf 1055478146))))
 (.node 4 (.node 2 (.node 1 (.leaf 1055478147)
 (.leaf 1055481922))
 (.node 1 (.leaf 1055484857)
 (.leaf 1055486954)))
 (.node 2 (.node 1 (.leaf 1055488212)
 (.leaf 1055488213))
 (.node 1 (.leaf 1055488214)
 (.leaf 1055488632)))))
 (.node 8 (.node 4 (.node 2 (.node 1 (.leaf 1055491711)
 (.leaf 1055492994))
 (.node 1 (.leaf 1055494190)
 (.leaf 1055494588)))
 (.node 2 (.node 1 (.leaf 1055494656)
 (.leaf 1055497875))
 (.node 1 (.leaf 1055503513)
 (.leaf 1055504570))))
 (.node 4 (.node 2 (.node 1 (.leaf 1055513377)
 (.leaf 1055513379))
 (.node 1 (.leaf 1055534519)
 (.leaf 1055535400)))
 (.node 2 (.node 1 (.leaf 1055537537)
 (.leaf 1055538544))
 (.node 1 (.leaf 1055551127)
 (.leaf 1055551128))))))))
 (.node 64 (.node 32 (.node 16 (.node 8 (.node 4 (.node 2 (.node 1 (.leaf 1055556161)
 (.leaf 1055560355))
 (.node 1 (.leaf 1055563711)
 (.leaf 1055566226)))
 (.node 2 (.node 1 (.leaf 1055566227)
 (.leaf 1055567904))
 (.node 1 (.leaf 1055568743)
 (.leaf 1055568744))))
 (.node 4 (.node 2 (.node 1 (.leaf 1055571890)
 (.leaf 1055572686))
 (.node 1 (.leaf 1055572687)
 (.leaf 1055575152)))
 (.node 2 (.node 1 (.leaf 1055575153)
 (.leaf 1055576796))
 (.node 1 (.leaf 1055583843)
 (.leaf 1055588876)))))
 (.node 8 (.node 4 (.node 2 (.node 1 (.leaf 1055592651)
 (.leaf 1055595822))
 (.node 1 (.leaf 1055598522)
 (.leaf 1055601459)))
 (.node 2 (.node 1 (.leaf 1055603925)
 (.leaf 1055606995))
 (.node 1 (.leaf 1055610619)
 (.leaf 1055620661))))
 (.node 4 (.node 2 (.node 1 (.leaf 1055622430)
 (.leaf 1055624812))
 (.node 1 (.leaf 1055631659)
 (.leaf 1055634175)))
 (.node 2 (.node 1 (.leaf 1055638789)
 (.leaf 1055642563))
 (.node 1 (.leaf 1055642564)
 (.leaf 1055645500))))))
 (.node 16 (.node 8 (.node 4 (.node 2 (.node 1 (.leaf 1055646001)
 (.leaf 1055646003))
 (.node 1 (.leaf 1055647596)
 (.leaf 1055648854)))
 (.node 2 (.node 1 (.leaf 1055649274)
 (.leaf 1055649275))
 (.node 1 (.leaf 1055650784)
 (.leaf 1055650785))))
 (.node 4 (.node 2 (.node 1 (.leaf 1055651183)
 (.leaf 1055651258))
 (.node 1 (.leaf 1055653661)
 (.leaf 1055655716)))
 (.node 2 (.node 1 (.leaf 1055664876)
 (.leaf 1055683666))
 (.node 1 (.leaf 1055689538)
 (.leaf 1055689540)))))
 (.node 8 (.node 4 (.node 2 (.node 1 (.leaf 1055712189)
 (.leaf 1055717222))
 (.node 1 (.leaf 1055721416)
 (.leaf 1055724771)))
 (.node 2 (.node 1 (.leaf 1055724772)
 (.leaf 1055726357))
 (.node 1 (.leaf 1055727288)
 (.leaf 1055727289))))
 (.node 4 (.node 2 (.node 1 (.leaf 1055728882)
 (.leaf 1055728965))
 (.node 1 (.leaf 1055729804)
 (.leaf 1055729805)))
 (.node 2 (.node 1 (.leaf 1055734636)
 (.leaf 1055736280))
 (.node 1 (.leaf 1055736281)
 (.leaf 1055744500)))))))
 (.node 32 (.node 16 (.node 8 (.node 4 (.node 2 (.node 1 (.leaf 1055745910)
 (.leaf 1055749233))
 (.node 1 (.leaf 1055751194)
 (.leaf 1055755978)))
 (.node 2 (.node 1 (.leaf 1055760002)
 (.leaf 1055766205))
 (.node 1 (.leaf 1055767931)
 (.leaf 1055768810))))
 (.node 4 (.node 2 (.node 1 (.leaf 1055770071)
 (.leaf 1055771279))
 (.node 1 (.leaf 1055777620)
 (.leaf 1055786428)))
 (.node 2 (.node 1 (.leaf 1055790203)
 (.leaf 1055790806))
 (.node 1 (.leaf 1055795656)
 (.leaf 1055800269)))))
 (.node 8 (.node 4 (.node 2 (.node 1 (.leaf 1055804044)
 (.leaf 1055806979))
 (.node 1 (.leaf 1055806980)
 (.leaf 1055809077)))
 (.node 2 (.node 1 (.leaf 1055810335)
 (.leaf 1055810336))
 (.node 1 (.leaf 1055810679)
 (.leaf 1055810754))))
 (.node 4 (.node 2 (.node 1 (.leaf 1055813556)
 (.leaf 1055813557))
 (.node 1 (.leaf 1055815611)
 (.leaf 1055816844)))
 (.node 2 (.node 1 (.leaf 1055826944)
 (.leaf 1055830469))
 (.node 1 (.leaf 1055841792)
 (.leaf 1055851607))))))
 (.node 16 (.node 8 (.node 4 (.node 2 (.node 1 (.leaf 1055853955)
 (.leaf 1055870734))
 (.node 1 (.leaf 1055874089)
 (.leaf 1055879122)))
 (.node 2 (.node 1 (.leaf 1055881202)
 (.leaf 1055883316))
 (.node 1 (.leaf 1055886672)
 (.leaf 1055889188))))
 (.node 4 (.node 2 (.node 1 (.leaf 1055890866)
 (.leaf 1055890867))
 (.node 1 (.leaf 1055891704)
 (.leaf 1055894943)))
 (.node 2 (.node 1 (.leaf 1055896586)
 (.leaf 1055897409))
 (.node 1 (.leaf 1055905425)
 (.leaf 1055907978)))))
 (.node 8 (.node 4 (.node 2 (.node 1 (.leaf 1055909740)
 (.leaf 1055918548))
 (.node 1 (.leaf 1055931131)
 (.leaf 1055931936)))
 (.node 2 (.node 1 (.leaf 1055931937)
 (.leaf 1055934050))
 (.node 1 (.leaf 1055939099)
 (.leaf 1055953278))))
 (.node 4 (.node 2 (.node 1 (.leaf 1055956801)
 (.leaf 1055957975))
 (.node 1 (.leaf 1055959887)
 (.leaf 1055962589)))
 (.node 2 (.node 1 (.leaf 1055966364)
 (.leaf 1055966365))
 (.node 1 (.leaf 1055969300)
 (.leaf 1055971395))))))))))
 (.node 256 (.node 128 (.node 64 (.node 32 (.node 16 (.node 8 (.node 4 (.node 2 (.node 1 (.leaf 1055971396)
 (.leaf 1055971397))
 (.node 1 (.leaf 1055971398)
 (.leaf 1055972655)))
 (.node 2 (.node 1 (.leaf 1055973074)
 (.leaf 1055973913))
 (.node 1 (.leaf 1055974273)
 (.leaf 1055975448))))
 (.node 4 (.node 2 (.node 1 (.leaf 1055977121)
 (.leaf 1055977563))
 (.node 1 (.leaf 1055977974)
 (.leaf 1055989013)))
 (.node 2 (.node 1 (.leaf 1055999582)
 (.leaf 1056001343))
 (.node 1 (.leaf 1056016695)
 (.leaf 1056018961)))))
 (.node 8 (.node 4 (.node 2 (.node 1 (.leaf 1056023742)
 (.leaf 1056024244))
 (.node 1 (.leaf 1056040652)
 (.leaf 1056041860)))
 (.node 2 (.node 1 (.leaf 1056041861)
 (.leaf 1056041862))
 (.node 1 (.leaf 1056046055)
 (.leaf 1056049411))))
 (.node 4 (.node 2 (.node 1 (.leaf 1056051927)
 (.leaf 1056052431))
 (.node 1 (.leaf 1056053605)
 (.leaf 1056054444)))
 (.node 2 (.node 1 (.leaf 1056058538)
 (.leaf 1056059477))
 (.node 1 (.leaf 1056062471)
 (.leaf 1056070047))))))
 (.node 16 (.node 8 (.node 4 (.node 2 (.node 1 (.leaf 1056084139)
 (.leaf 1056085901))
 (.node 1 (.leaf 1056092595)
 (.leaf 1056092596)))
 (.node 2 (.node 1 (.leaf 1056095942)
 (.leaf 1056095943))
 (.node 1 (.leaf 1056102259)
 (.leaf 1056103467))))
 (.node 4 (.node 2 (.node 1 (.leaf 1056109388)
 (.leaf 1056125747))
 (.node 1 (.leaf 1056129522)
 (.leaf 1056129941)))
 (.node 2 (.node 1 (.leaf 1056132458)
 (.leaf 1056132459))
 (.node 1 (.leaf 1056134555)
 (.leaf 1056135812)))))
 (.node 8 (.node 4 (.node 2 (.node 1 (.leaf 1056135813)
 (.leaf 1056136234))
 (.node 1 (.leaf 1056137441)
 (.leaf 1056139102)))
 (.node 2 (.node 1 (.leaf 1056139513)
 (.leaf 1056151081))
 (.node 1 (.leaf 1056152842)
 (.leaf 1056156366))))
 (.node 4 (.node 2 (.node 1 (.leaf 1056166934)
 (.leaf 1056173981))
 (.node 1 (.leaf 1056180273)
 (.leaf 1056194533)))
 (.node 2 (.node 1 (.leaf 1056195877)
 (.leaf 1056199700))
 (.node 1 (.leaf 1056202924)
 (.leaf 1056203224)))))))
 (.node 32 (.node 16 (.node 8 (.node 4 (.node 2 (.node 1 (.leaf 1056209633)
 (.leaf 1056212988))
 (.node 1 (.leaf 1056215505)
 (.leaf 1056217183)))
 (.node 2 (.node 1 (.leaf 1056218021)
 (.leaf 1056218023))
 (.node 1 (.leaf 1056219666)
 (.leaf 1056220488))))
 (.node 4 (.node 2 (.node 1 (.leaf 1056221309)
 (.leaf 1056227257))
 (.node 1 (.leaf 1056232115)
 (.leaf 1056233171)))
 (.node 2 (.node 1 (.leaf 1056234933)
 (.leaf 1056249730))
 (.node 1 (.leaf 1056252877)
 (.leaf 1056253252)))))
 (.node 8 (.node 4 (.node 2 (.node 1 (.leaf 1056253253)
 (.leaf 1056253254))
 (.node 1 (.leaf 1056257029)
 (.leaf 1056259948)))
 (.node 2 (.node 1 (.leaf 1056273386)
 (.leaf 1056279677))
 (.node 1 (.leaf 1056281943)
 (.leaf 1056286727))))
 (.node 4 (.node 2 (.node 1 (.leaf 1056293519)
 (.leaf 1056296455))
 (.node 1 (.leaf 1056297293)
 (.leaf 1056298552)))
 (.node 2 (.node 1 (.leaf 1056299811)
 (.leaf 1056300231))
 (.node 1 (.leaf 1056306101)
 (.leaf 1056313778))))))
 (.node 16 (.node 8 (.node 4 (.node 2 (.node 1 (.leaf 1056324976)
 (.leaf 1056324977))
 (.node 1 (.leaf 1056332526)
 (.leaf 1056337811)))
 (.node 2 (.node 1 (.leaf 1056355672)
 (.leaf 1056358448))
 (.node 1 (.leaf 1056358949)
 (.leaf 1056358950))))
 (.node 4 (.node 2 (.node 1 (.leaf 1056365998)
 (.leaf 1056377405))
 (.node 1 (.leaf 1056379922)
 (.leaf 1056381600)))
 (.node 2 (.node 1 (.leaf 1056382439)
 (.leaf 1056394182))
 (.node 1 (.leaf 1056394183)
 (.leaf 1056403871)))))
 (.node 8 (.node 4 (.node 2 (.node 1 (.leaf 1056414314)
 (.leaf 1056415321))
 (.node 1 (.leaf 1056415322)
 (.leaf 1056420607)))
 (.node 2 (.node 1 (.leaf 1056422368)
 (.leaf 1056427442))
 (.node 1 (.leaf 1056430171)
 (.leaf 1056433944))))
 (.node 4 (.node 2 (.node 1 (.leaf 1056444514)
 (.leaf 1056444515))
 (.node 1 (.leaf 1056447031)
 (.leaf 1056449966)))
 (.node 2 (.node 1 (.leaf 1056454076)
 (.leaf 1056454077))
 (.node 1 (.leaf 1056458859)
 (.leaf 1056461291))))))))
 (.node 64 (.node 32 (.node 16 (.node 8 (.node 4 (.node 2 (.node 1 (.leaf 1056463389)
 (.leaf 1056464646))
 (.node 1 (.leaf 1056464647)
 (.leaf 1056465067)))
 (.node 2 (.node 1 (.leaf 1056482262)
 (.leaf 1056482263))
 (.node 1 (.leaf 1056494846)
 (.leaf 1056498117))))
 (.node 4 (.node 2 (.node 1 (.leaf 1056506925)
 (.leaf 1056507630))
 (.node 1 (.leaf 1056511154)
 (.leaf 1056525800)))
 (.node 2 (.node 1 (.leaf 1056526303)
 (.leaf 1056530078))
 (.node 1 (.leaf 1056535110)
 (.leaf 1056539691)))))
 (.node 8 (.node 4 (.node 2 (.node 1 (.leaf 1056540144)
 (.leaf 1056540145))
 (.node 1 (.leaf 1056545178)
 (.leaf 1056546856)))
 (.node 2 (.node 1 (.leaf 1056547695)
 (.leaf 1056547794))
 (.node 1 (.leaf 1056563296)
 (.leaf 1056567071))))
 (.node 4 (.node 2 (.node 1 (.leaf 1056570342)
 (.leaf 1056570343))
 (.node 1 (.leaf 1056574570)
 (.leaf 1056575378)))
 (.node 2 (.node 1 (.leaf 1056580913)
 (.leaf 1056587959))
 (.node 1 (.leaf 1056591482)
 (.leaf 1056591483))))))
 (.node 16 (.node 8 (.node 4 (.node 2 (.node 1 (.leaf 1056608092)
 (.leaf 1056614133))
 (.node 1 (.leaf 1056615641)
 (.leaf 1056615642)))
 (.node 2 (.node 1 (.leaf 1056620254)
 (.leaf 1056620443))
 (.node 1 (.leaf 1056620775)
 (.leaf 1056626212))))
 (.node 4 (.node 2 (.node 1 (.leaf 1056629064)
 (.leaf 1056630322))
 (.node 1 (.leaf 1056635776)
 (.leaf 1056638834)))
 (.node 2 (.node 1 (.leaf 1056654900)
 (.leaf 1056658423))
 (.node 1 (.leaf 1056658424)
 (.leaf 1056659920)))))
 (.node 8 (.node 4 (.node 2 (.node 1 (.leaf 1056661359)
 (.leaf 1056663708))
 (.node 1 (.leaf 1056674278)
 (.leaf 1056676039)))
 (.node 2 (.node 1 (.leaf 1056676040)
 (.leaf 1056676041))
 (.node 1 (.leaf 1056680320)
 (.leaf 1056696172))))
 (.node 4 (.node 2 (.node 1 (.leaf 1056698891)
 (.leaf 1056701205))
 (.node 1 (.leaf 1056701408)
 (.leaf 1056712279)))
 (.node 2 (.node 1 (.leaf 1056712950)
 (.leaf 1056713789))
 (.node 1 (.leaf 1056721840)
 (.leaf 1056722346)))))))
 (.node 32 (.node 16 (.node 8 (.node 4 (.node 2 (.node 1 (.leaf 1056726372)
 (.leaf 1056745271))
 (.node 1 (.leaf 1056746504)
 (.leaf 1056752375)))
 (.node 2 (.node 1 (.leaf 1056755311)
 (.leaf 1056755312))
 (.node 1 (.leaf 1056760597)
 (.leaf 1056760598))))
 (.node 4 (.node 2 (.node 1 (.leaf 1056786769)
 (.leaf 1056790544))
 (.node 1 (.leaf 1056796836)
 (.leaf 1056797255)))
 (.node 2 (.node 1 (.leaf 1056798346)
 (.leaf 1056799252))
 (.node 1 (.leaf 1056808160)
 (.leaf 1056808864)))))
 (.node 8 (.node 4 (.node 2 (.node 1 (.leaf 1056808916)
 (.leaf 1056816967))
 (.node 1 (.leaf 1056826364)
 (.leaf 1056827033)))
 (.node 2 (.node 1 (.leaf 1056827034)
 (.leaf 1056827035))
 (.node 1 (.leaf 1056830621)
 (.leaf 1056834584))))
 (.node 4 (.node 2 (.node 1 (.leaf 1056843391)
 (.leaf 1056845155))
 (.node 1 (.leaf 1056846915)
 (.leaf 1056857234)))
 (.node 2 (.node 1 (.leaf 1056862418)
 (.leaf 1056872333))
 (.node 1 (.leaf 1056873339)
 (.leaf 1056875688))))))
 (.node 16 (.node 8 (.node 4 (.node 2 (.node 1 (.leaf 1056880722)
 (.leaf 1056895887))
 (.node 1 (.leaf 1056914611)
 (.leaf 1056915970)))
 (.node 2 (.node 1 (.leaf 1056922664)
 (.leaf 1056922666))
 (.node 1 (.leaf 1056929712)
 (.leaf 1056930634))))
 (.node 4 (.node 2 (.node 1 (.leaf 1056933234)
 (.leaf 1056934407))
 (.node 1 (.leaf 1056937763)
 (.leaf 1056947832)))
 (.node 2 (.node 1 (.leaf 1056957896)
 (.leaf 1056957897))
 (.node 1 (.leaf 1056960414)
 (.leaf 1056960832)))))
 (.node 8 (.node 4 (.node 2 (.node 1 (.leaf 1056966185)
 (.leaf 1056967543))
 (.node 1 (.leaf 1056967544)
 (.leaf 1056968450)))
 (.node 2 (.node 1 (.leaf 1056973333)
 (.leaf 1056978868))
 (.node 1 (.leaf 1056983377)
 (.leaf 1056987676))))
 (.node 4 (.node 2 (.node 1 (.leaf 1056991452)
 (.leaf 1056992081))
 (.node 1 (.leaf 1056995016)
 (.leaf 1057000712)))
 (.node 2 (.node 1 (.leaf 1057001518)
 (.leaf 1057002210))
 (.node 1 (.leaf 1057004034)
 (.leaf 1057005293)))))))))
 (.node 128 (.node 64 (.node 32 (.node 16 (.node 8 (.node 4 (.node 2 (.node 1 (.leaf 1057005796)
 (.leaf 1057007759))
 (.node 1 (.leaf 1057015510)
 (.leaf 1057017271)))
 (.node 2 (.node 1 (.leaf 1057031716)
 (.leaf 1057031717))
 (.node 1 (.leaf 1057035240)
 (.leaf 1057035282))))
 (.node 4 (.node 2 (.node 1 (.leaf 1057035744)
 (.leaf 1057040525))
 (.node 1 (.leaf 1057044048)
 (.leaf 1057046816)))
 (.node 2 (.node 1 (.leaf 1057049333)
 (.leaf 1057053737))
 (.node 1 (.leaf 1057070976)
 (.leaf 1057075757)))))
 (.node 8 (.node 4 (.node 2 (.node 1 (.leaf 1057078400)
 (.leaf 1057078692))
 (.node 1 (.leaf 1057086033)
 (.leaf 1057088340)))
 (.node 2 (.node 1 (.leaf 1057090907)
 (.leaf 1057092115))
 (.node 1 (.leaf 1057096645)
 (.leaf 1057102180))))
 (.node 4 (.node 2 (.node 1 (.leaf 1057103817)
 (.leaf 1057104295))
 (.node 1 (.leaf 1057110988)
 (.leaf 1057110989)))
 (.node 2 (.node 1 (.leaf 1057112247)
 (.leaf 1057119797))
 (.node 1 (.leaf 1057121559)
 (.leaf 1057124327))))))
 (.node 16 (.node 8 (.node 4 (.node 2 (.node 1 (.leaf 1057125668)
 (.leaf 1057131541))
 (.node 1 (.leaf 1057132380)
 (.leaf 1057136092)))
 (.node 2 (.node 1 (.leaf 1057137413)
 (.leaf 1057142447))
 (.node 1 (.leaf 1057147137)
 (.leaf 1057150625))))
 (.node 4 (.node 2 (.node 1 (.leaf 1057151254)
 (.leaf 1057154022))
 (.node 1 (.leaf 1057155910)
 (.leaf 1057157546)))
 (.node 2 (.node 1 (.leaf 1057161194)
 (.leaf 1057161195))
 (.node 1 (.leaf 1057163838)
 (.leaf 1057164718)))))
 (.node 8 (.node 4 (.node 2 (.node 1 (.leaf 1057167927)
 (.leaf 1057168619))
 (.node 1 (.leaf 1057172644)
 (.leaf 1057173149)))
 (.node 2 (.node 1 (.leaf 1057177049)
 (.leaf 1057179604))
 (.node 1 (.leaf 1057182712)
 (.leaf 1057186336))))
 (.node 4 (.node 2 (.node 1 (.leaf 1057187745)
 (.leaf 1057189557))
 (.node 1 (.leaf 1057192275)
 (.leaf 1057200642)))
 (.node 2 (.node 1 (.leaf 1057200831)
 (.leaf 1057201838))
 (.node 1 (.leaf 1057206620)
 (.leaf 1057207877)))))))
 (.node 32 (.node 16 (.node 8 (.node 4 (.node 2 (.node 1 (.leaf 1057207878)
 (.leaf 1057212282))
 (.node 1 (.leaf 1057212558)
 (.leaf 1057212910)))
 (.node 2 (.node 1 (.leaf 1057213911)
 (.leaf 1057219621))
 (.node 1 (.leaf 1057222557)
 (.leaf 1057223952))))
 (.node 4 (.node 2 (.node 1 (.leaf 1057228010)
 (.leaf 1057230527))
 (.node 1 (.leaf 1057233043)
 (.leaf 1057245752)))
 (.node 2 (.node 1 (.leaf 1057251565)
 (.leaf 1057251918))
 (.node 1 (.leaf 1057260725)
 (.leaf 1057261078)))))
 (.node 8 (.node 4 (.node 2 (.node 1 (.leaf 1057266597)
 (.leaf 1057268065))
 (.node 1 (.leaf 1057268301)
 (.leaf 1057273308)))
 (.node 2 (.node 1 (.leaf 1057273309)
 (.leaf 1057278341))
 (.node 1 (.leaf 1057290296)
 (.leaf 1057290673))))
 (.node 4 (.node 2 (.node 1 (.leaf 1057295958)
 (.leaf 1057297467))
 (.node 1 (.leaf 1057303507)
 (.leaf 1057307031)))
 (.node 2 (.node 1 (.leaf 1057307349)
 (.leaf 1057311812))
 (.node 1 (.leaf 1057313573)
 (.leaf 1057313574))))))
 (.node 16 (.node 8 (.node 4 (.node 2 (.node 1 (.leaf 1057318607)
 (.leaf 1057320180))
 (.node 1 (.leaf 1057324143)
 (.leaf 1057328674)))
 (.node 2 (.node 1 (.leaf 1057328988)
 (.leaf 1057333330))
 (.node 1 (.leaf 1057333707)
 (.leaf 1057335594))))
 (.node 4 (.node 2 (.node 1 (.leaf 1057339998)
 (.leaf 1057343371))
 (.node 1 (.leaf 1057344402)
 (.leaf 1057346289)))
 (.node 2 (.node 1 (.leaf 1057346574)
 (.leaf 1057352581))
 (.node 1 (.leaf 1057356998)
 (.leaf 1057359082)))))
 (.node 8 (.node 4 (.node 2 (.node 1 (.leaf 1057360550)
 (.leaf 1057362018))
 (.node 1 (.leaf 1057363906)
 (.leaf 1057367596)))
 (.node 2 (.node 1 (.leaf 1057369945)
 (.leaf 1057373972))
 (.node 1 (.leaf 1057375230)
 (.leaf 1057375985))))
 (.node 4 (.node 2 (.node 1 (.leaf 1057379005)
 (.leaf 1057380515))
 (.node 1 (.leaf 1057382360)
 (.leaf 1057384038)))
 (.node 2 (.node 1 (.leaf 1057384039)
 (.leaf 1057392846))
 (.node 1 (.leaf 1057397879)
 (.leaf 1057403290))))))))
 (.node 64 (.node 32 (.node 16 (.node 8 (.node 4 (.node 2 (.node 1 (.leaf 1057404590)
 (.leaf 1057407526))
 (.node 1 (.leaf 1057409205)
 (.leaf 1057410462)))
 (.node 2 (.node 1 (.leaf 1057412223)
 (.leaf 1057412224))
 (.node 1 (.leaf 1057415746)
 (.leaf 1057415747))))
 (.node 4 (.node 2 (.node 1 (.leaf 1057420277)
 (.leaf 1057421787))
 (.node 1 (.leaf 1057421788)
 (.leaf 1057425436)))
 (.node 2 (.node 1 (.leaf 1057431014)
 (.leaf 1057432306))
 (.node 1 (.leaf 1057434370)
 (.leaf 1057441290)))))
 (.node 8 (.node 4 (.node 2 (.node 1 (.leaf 1057444889)
 (.leaf 1057445695))
 (.node 1 (.leaf 1057446953)
 (.leaf 1057450098)))
 (.node 2 (.node 1 (.leaf 1057454502)
 (.leaf 1057454503))
 (.node 1 (.leaf 1057456851)
 (.leaf 1057458245))))
 (.node 4 (.node 2 (.node 1 (.leaf 1057459460)
 (.leaf 1057460945))
 (.node 1 (.leaf 1057461548)
 (.leaf 1057466582)))
 (.node 2 (.node 1 (.leaf 1057469602)
 (.leaf 1057470357))
 (.node 1 (.leaf 1057474635)
 (.leaf 1057478918))))))
 (.node 16 (.node 8 (.node 4 (.node 2 (.node 1 (.leaf 1057479165)
 (.leaf 1057487550))
 (.node 1 (.leaf 1057489734)
 (.leaf 1057492377)))
 (.node 2 (.node 1 (.leaf 1057495607)
 (.leaf 1057498166))
 (.node 1 (.leaf 1057499802)
 (.leaf 1057501478))))
 (.node 4 (.node 2 (.node 1 (.leaf 1057503576)
 (.leaf 1057503828))
 (.node 1 (.leaf 1057507351)
 (.leaf 1057509200)))
 (.node 2 (.node 1 (.leaf 1057514901)
 (.leaf 1057515278))
 (.node 1 (.leaf 1057516159)
 (.leaf 1057526025)))))
 (.node 8 (.node 4 (.node 2 (.node 1 (.leaf 1057528322)
 (.leaf 1057538178))
 (.node 1 (.leaf 1057538179)
 (.leaf 1057539060)))
 (.node 2 (.node 1 (.leaf 1057541115)
 (.leaf 1057545100))
 (.node 1 (.leaf 1057547490)
 (.leaf 1057547616))))
 (.node 4 (.node 2 (.node 1 (.leaf 1057548454)
 (.leaf 1057553152))
 (.node 1 (.leaf 1057559192)
 (.leaf 1057560198)))
 (.node 2 (.node 1 (.leaf 1057560199)
 (.leaf 1057565232))
 (.node 1 (.leaf 1057571210)
 (.leaf 1057572884)))))))
 (.node 32 (.node 16 (.node 8 (.node 4 (.node 2 (.node 1 (.leaf 1057580017)
 (.leaf 1057585742))
 (.node 1 (.leaf 1057586623)
 (.leaf 1057589140)))
 (.node 2 (.node 1 (.leaf 1057590399)
 (.leaf 1057593922))
 (.node 1 (.leaf 1057595430)
 (.leaf 1057595431))))
 (.node 4 (.node 2 (.node 1 (.leaf 1057598954)
 (.leaf 1057604240))
 (.node 1 (.leaf 1057610111)
 (.leaf 1057612544)))
 (.node 2 (.node 1 (.leaf 1057613047)
 (.leaf 1057617352))
 (.node 1 (.leaf 1057619754)
 (.leaf 1057622611)))))
 (.node 8 (.node 4 (.node 2 (.node 1 (.leaf 1057632131)
 (.leaf 1057632425))
 (.node 1 (.leaf 1057635067)
 (.leaf 1057635361)))
 (.node 2 (.node 1 (.leaf 1057635696)
 (.leaf 1057635697))
 (.node 1 (.leaf 1057641384)
 (.leaf 1057642334))))
 (.node 4 (.node 2 (.node 1 (.leaf 1057642407)
 (.leaf 1057644756))
 (.node 1 (.leaf 1057645763)
 (.leaf 1057648908)))
 (.node 2 (.node 1 (.leaf 1057651299)
 (.leaf 1057660023))
 (.node 1 (.leaf 1057660611)
 (.leaf 1057660863))))))
 (.node 16 (.node 8 (.node 4 (.node 2 (.node 1 (.leaf 1057665417)
 (.leaf 1057670299))
 (.node 1 (.leaf 1057677639)
 (.leaf 1057679108)))
 (.node 2 (.node 1 (.leaf 1057679988)
 (.leaf 1057683511))
 (.node 1 (.leaf 1057689383)
 (.leaf 1057689489))))
 (.node 4 (.node 2 (.node 1 (.leaf 1057695138)
 (.leaf 1057698611))
 (.node 1 (.leaf 1057699114)
 (.leaf 1057701127)))
 (.node 2 (.node 1 (.leaf 1057701128)
 (.leaf 1057703896))
 (.node 1 (.leaf 1057707167)
 (.leaf 1057708174)))))
 (.node 8 (.node 4 (.node 2 (.node 1 (.leaf 1057708678)
 (.leaf 1057709935))
 (.node 1 (.leaf 1057711194)
 (.leaf 1057712025)))
 (.node 2 (.node 1 (.leaf 1057713459)
 (.leaf 1057725791))
 (.node 1 (.leaf 1057727804)
 (.leaf 1057731452))))
 (.node 4 (.node 2 (.node 1 (.leaf 1057731956)
 (.leaf 1057736359))
 (.node 1 (.leaf 1057736360)
 (.leaf 1057742651)))
 (.node 2 (.node 1 (.leaf 1057744538)
 (.leaf 1057754354))
 (.node 1 (.leaf 1057755737)
 (.leaf 1057756492)))))))))))
 (.node 512 (.node 256 (.node 128 (.node 64 (.node 32 (.node 16 (.node 8 (.node 4 (.node 2 (.node 1 (.leaf 1057756493)
 (.leaf 1057759847))
 (.node 1 (.leaf 1057760317)
 (.leaf 1057771592)))
 (.node 2 (.node 1 (.leaf 1057772473)
 (.leaf 1057774109))
 (.node 1 (.leaf 1057780400)
 (.leaf 1057783336))))
 (.node 4 (.node 2 (.node 1 (.leaf 1057786691)
 (.leaf 1057789963))
 (.node 1 (.leaf 1057797261)
 (.leaf 1057801791)))
 (.node 2 (.node 1 (.leaf 1057803301)
 (.leaf 1057804308))
 (.node 1 (.leaf 1057804811)
 (.leaf 1057807176)))))
 (.node 8 (.node 4 (.node 2 (.node 1 (.leaf 1057809759)
 (.leaf 1057816890))
 (.node 1 (.leaf 1057819156)
 (.leaf 1057824440)))
 (.node 2 (.node 1 (.leaf 1057825825)
 (.leaf 1057828215))
 (.node 1 (.leaf 1057828844)
 (.leaf 1057828845))))
 (.node 4 (.node 2 (.node 1 (.leaf 1057828931)
 (.leaf 1057830312))
 (.node 1 (.leaf 1057832997)
 (.leaf 1057837023)))
 (.node 2 (.node 1 (.leaf 1057840559)
 (.leaf 1057848867))
 (.node 1 (.leaf 1057850865)
 (.leaf 1057852123))))))
 (.node 16 (.node 8 (.node 4 (.node 2 (.node 1 (.leaf 1057859672)
 (.leaf 1057862189))
 (.node 1 (.leaf 1057864076)
 (.leaf 1057865838)))
 (.node 2 (.node 1 (.leaf 1057869654)
 (.leaf 1057871248))
 (.node 1 (.leaf 1057875820)
 (.leaf 1057877288))))
 (.node 4 (.node 2 (.node 1 (.leaf 1057881063)
 (.leaf 1057885593))
 (.node 1 (.leaf 1057887355)
 (.leaf 1057887984)))
 (.node 2 (.node 1 (.leaf 1057894200)
 (.leaf 1057898428))
 (.node 1 (.leaf 1057899939)
 (.leaf 1057900894)))))
 (.node 8 (.node 4 (.node 2 (.node 1 (.leaf 1057901448)
 (.leaf 1057902957))
 (.node 1 (.leaf 1057909500)
 (.leaf 1057909584)))
 (.node 2 (.node 1 (.leaf 1057911891)
 (.leaf 1057912521))
 (.node 1 (.leaf 1057917554)
 (.leaf 1057918812))))
 (.node 4 (.node 2 (.node 1 (.leaf 1057924323)
 (.leaf 1057925732))
 (.node 1 (.leaf 1057927200)
 (.leaf 1057929256)))
 (.node 2 (.node 1 (.leaf 1057930136)
 (.leaf 1057931018))
 (.node 1 (.leaf 1057937065)
 (.leaf 1057937686)))))))
 (.node 32 (.node 16 (.node 8 (.node 4 (.node 2 (.node 1 (.leaf 1057937687)
 (.leaf 1057940102))
 (.node 1 (.leaf 1057945991)
 (.leaf 1057947752)))
 (.node 2 (.node 1 (.leaf 1057947753)
 (.leaf 1057947754))
 (.node 1 (.leaf 1057949766)
 (.leaf 1057957088))))
 (.node 4 (.node 2 (.node 1 (.leaf 1057959496)
 (.leaf 1057964488))
 (.node 1 (.leaf 1057971240)
 (.leaf 1057972018)))
 (.node 2 (.node 1 (.leaf 1057974176)
 (.leaf 1057978580))
 (.node 1 (.leaf 1057986005)
 (.leaf 1057988018)))))
 (.node 8 (.node 4 (.node 2 (.node 1 (.leaf 1057989591)
 (.leaf 1057989695))
 (.node 1 (.leaf 1057993555)
 (.leaf 1057995569)))
 (.node 2 (.node 1 (.leaf 1057997077)
 (.leaf 1057997078))
 (.node 1 (.leaf 1057998084)
 (.leaf 1058000350))))
 (.node 4 (.node 2 (.node 1 (.leaf 1058005131)
 (.leaf 1058005445))
 (.node 1 (.leaf 1058008351)
 (.leaf 1058009408)))
 (.node 2 (.node 1 (.leaf 1058009895)
 (.leaf 1058011904))
 (.node 1 (.leaf 1058013184)
 (.leaf 1058022621))))))
 (.node 16 (.node 8 (.node 4 (.node 2 (.node 1 (.leaf 1058027025)
 (.leaf 1058029961))
 (.node 1 (.leaf 1058033821)
 (.leaf 1058038349)))
 (.node 2 (.node 1 (.leaf 1058041118)
 (.leaf 1058041705))
 (.node 1 (.leaf 1058043383)
 (.leaf 1058044642))))
 (.node 4 (.node 2 (.node 1 (.leaf 1058045375)
 (.leaf 1058046402))
 (.node 1 (.leaf 1058046403)
 (.leaf 1058046404)))
 (.node 2 (.node 1 (.leaf 1058047409)
 (.leaf 1058059321))
 (.node 1 (.leaf 1058063515)
 (.leaf 1058063767)))))
 (.node 8 (.node 4 (.node 2 (.node 1 (.leaf 1058064900)
 (.leaf 1058071065))
 (.node 1 (.leaf 1058073582)
 (.leaf 1058078615)))
 (.node 2 (.node 1 (.leaf 1058081341)
 (.leaf 1058088681))
 (.node 1 (.leaf 1058088682)
 (.leaf 1058093211))))
 (.node 4 (.node 2 (.node 1 (.leaf 1058093212)
 (.leaf 1058093714))
 (.node 1 (.leaf 1058094722)
 (.leaf 1058095214)))
 (.node 2 (.node 1 (.leaf 1058095727)
 (.leaf 1058095728))
 (.node 1 (.leaf 1058109233)
 (.leaf 1058111229))))))))
 (.node 64 (.node 32 (.node 16 (.node 8 (.node 4 (.node 2 (.node 1 (.leaf 1058112727)
 (.leaf 1058115105))
 (.node 1 (.leaf 1058119509)
 (.leaf 1058120139)))
 (.node 2 (.node 1 (.leaf 1058126430)
 (.leaf 1058127059))
 (.node 1 (.leaf 1058132722)
 (.leaf 1058139013))))
 (.node 4 (.node 2 (.node 1 (.leaf 1058139014)
 (.leaf 1058141529))
 (.node 1 (.leaf 1058142998)
 (.leaf 1058145052)))
 (.node 2 (.node 1 (.leaf 1058145723)
 (.leaf 1058159145))
 (.node 1 (.leaf 1058165311)
 (.leaf 1058167954)))))
 (.node 8 (.node 4 (.node 2 (.node 1 (.leaf 1058168100)
 (.leaf 1058177328))
 (.node 1 (.leaf 1058179279)
 (.leaf 1058182047)))
 (.node 2 (.node 1 (.leaf 1058183154)
 (.leaf 1058184102))
 (.node 1 (.leaf 1058184110)
 (.leaf 1058185394))))
 (.node 4 (.node 2 (.node 1 (.leaf 1058189345)
 (.leaf 1058189974))
 (.node 1 (.leaf 1058194377)
 (.leaf 1058194378)))
 (.node 2 (.node 1 (.leaf 1058197733)
 (.leaf 1058201927))
 (.node 1 (.leaf 1058201928)
 (.leaf 1058205954))))))
 (.node 16 (.node 8 (.node 4 (.node 2 (.node 1 (.leaf 1058208345)
 (.leaf 1058209057))
 (.node 1 (.leaf 1058209477)
 (.leaf 1058210736)))
 (.node 2 (.node 1 (.leaf 1058215516)
 (.leaf 1058215517))
 (.node 1 (.leaf 1058216398)
 (.leaf 1058217783))))
 (.node 4 (.node 2 (.node 1 (.leaf 1058221095)
 (.leaf 1058235482))
 (.node 1 (.leaf 1058239425)
 (.leaf 1058239676)))
 (.node 2 (.node 1 (.leaf 1058239677)
 (.leaf 1058240620))
 (.node 1 (.leaf 1058243703)
 (.leaf 1058245968)))))
 (.node 8 (.node 4 (.node 2 (.node 1 (.leaf 1058247225)
 (.leaf 1058249743))
 (.node 1 (.leaf 1058251378)
 (.leaf 1058258551)))
 (.node 2 (.node 1 (.leaf 1058258969)
 (.leaf 1058259808))
 (.node 1 (.leaf 1058259809)
 (.leaf 1058260967))))
 (.node 4 (.node 2 (.node 1 (.leaf 1058264842)
 (.leaf 1058264843))
 (.node 1 (.leaf 1058265722)
 (.leaf 1058273015)))
 (.node 2 (.node 1 (.leaf 1058274090)
 (.leaf 1058280068))
 (.node 1 (.leaf 1058282458)
 (.leaf 1058286862)))))))
 (.node 32 (.node 16 (.node 8 (.node 4 (.node 2 (.node 1 (.leaf 1058290008)
 (.leaf 1058293028))
 (.node 1 (.leaf 1058293363)
 (.leaf 1058299193)))
 (.node 2 (.node 1 (.leaf 1058300074)
 (.leaf 1058301752))
 (.node 1 (.leaf 1058306366)
 (.leaf 1058308882))))
 (.node 4 (.node 2 (.node 1 (.leaf 1058314608)
 (.leaf 1058315174))
 (.node 1 (.leaf 1058315928)
 (.leaf 1058319554)))
 (.node 2 (.node 1 (.leaf 1058322622)
 (.leaf 1058325252))
 (.node 1 (.leaf 1058327756)
 (.leaf 1058330273)))))
 (.node 8 (.node 4 (.node 2 (.node 1 (.leaf 1058333545)
 (.leaf 1058334048))
 (.node 1 (.leaf 1058337508)
 (.leaf 1058338242)))
 (.node 2 (.node 1 (.leaf 1058340340)
 (.leaf 1058342228))
 (.node 1 (.leaf 1058342353)
 (.leaf 1058347050))))
 (.node 4 (.node 2 (.node 1 (.leaf 1058351073)
 (.leaf 1058352922))
 (.node 1 (.leaf 1058352923)
 (.leaf 1058353761)))
 (.node 2 (.node 1 (.leaf 1058358794)
 (.leaf 1058360472))
 (.node 1 (.leaf 1058366134)
 (.leaf 1058375572))))))
 (.node 16 (.node 8 (.node 4 (.node 2 (.node 1 (.leaf 1058378088)
 (.leaf 1058381611))
 (.node 1 (.leaf 1058384463)
 (.leaf 1058384631)))
 (.node 2 (.node 1 (.leaf 1058389622)
 (.leaf 1058390672))
 (.node 1 (.leaf 1058397214)
 (.leaf 1058400737))))
 (.node 4 (.node 2 (.node 1 (.leaf 1058405771)
 (.leaf 1058407239))
 (.node 1 (.leaf 1058408706)
 (.leaf 1058415837)))
 (.node 2 (.node 1 (.leaf 1058416340)
 (.leaf 1058420524))
 (.node 1 (.leaf 1058427414)
 (.leaf 1058428420)))))
 (.node 8 (.node 4 (.node 2 (.node 1 (.leaf 1058429678)
 (.leaf 1058429728))
 (.node 1 (.leaf 1058432950)
 (.leaf 1058435718)))
 (.node 2 (.node 1 (.leaf 1058437857)
 (.leaf 1058441003))
 (.node 1 (.leaf 1058441004)
 (.leaf 1058442010))))
 (.node 4 (.node 2 (.node 1 (.leaf 1058446037)
 (.leaf 1058449811))
 (.node 1 (.leaf 1058453795)
 (.leaf 1058454424)))
 (.node 2 (.node 1 (.leaf 1058458619)
 (.leaf 1058461555))
 (.node 1 (.leaf 1058464155)
 (.leaf 1058464282)))))))))
 (.node 128 (.node 64 (.node 32 (.node 16 (.node 8 (.node 4 (.node 2 (.node 1 (.leaf 1058466546)
 (.leaf 1058473718))
 (.node 1 (.leaf 1058473719)
 (.leaf 1058478260)))
 (.node 2 (.node 1 (.leaf 1058481268)
 (.leaf 1058483281))
 (.node 1 (.leaf 1058484288)
 (.leaf 1058484364))))
 (.node 4 (.node 2 (.node 1 (.leaf 1058485043)
 (.leaf 1058486804))
 (.node 1 (.leaf 1058491335)
 (.leaf 1058492383)))
 (.node 2 (.node 1 (.leaf 1058497626)
 (.leaf 1058501401))
 (.node 1 (.leaf 1058501778)
 (.leaf 1058506560)))))
 (.node 8 (.node 4 (.node 2 (.node 1 (.leaf 1058508111)
 (.leaf 1058508531))
 (.node 1 (.leaf 1058509789)
 (.leaf 1058511467)))
 (.node 2 (.node 1 (.leaf 1058515871)
 (.leaf 1058516752))
 (.node 1 (.leaf 1058520979)
 (.leaf 1058521533))))
 (.node 4 (.node 2 (.node 1 (.leaf 1058522791)
 (.leaf 1058529303))
 (.node 1 (.leaf 1058532858)
 (.leaf 1058533488)))
 (.node 2 (.node 1 (.leaf 1058535626)
 (.leaf 1058537892))
 (.node 1 (.leaf 1058541666)
 (.leaf 1058541667))))))
 (.node 16 (.node 8 (.node 4 (.node 2 (.node 1 (.leaf 1058543763)
 (.leaf 1058545038))
 (.node 1 (.leaf 1058547833)
 (.leaf 1058548914)))
 (.node 2 (.node 1 (.leaf 1058552286)
 (.leaf 1058553745))
 (.node 1 (.leaf 1058558443)
 (.leaf 1058559383))))
 (.node 4 (.node 2 (.node 1 (.leaf 1058561799)
 (.leaf 1058564315))
 (.node 1 (.leaf 1058564316)
 (.leaf 1058566957)))
 (.node 2 (.node 1 (.leaf 1058569349)
 (.leaf 1058570187))
 (.node 1 (.leaf 1058571978)
 (.leaf 1058572243)))))
 (.node 8 (.node 4 (.node 2 (.node 1 (.leaf 1058573878)
 (.leaf 1058574130))
 (.node 1 (.leaf 1058574305)
 (.leaf 1058576441)))
 (.node 2 (.node 1 (.leaf 1058579415)
 (.leaf 1058583693))
 (.node 1 (.leaf 1058584448)
 (.leaf 1058585313))))
 (.node 4 (.node 2 (.node 1 (.leaf 1058585707)
 (.leaf 1058586084))
 (.node 1 (.leaf 1058586481)
 (.leaf 1058588713)))
 (.node 2 (.node 1 (.leaf 1058588978)
 (.leaf 1058591998))
 (.node 1 (.leaf 1058593570)
 (.leaf 1058595144)))))))
 (.node 32 (.node 16 (.node 8 (.node 4 (.node 2 (.node 1 (.leaf 1058597031)
 (.leaf 1058599234))
 (.node 1 (.leaf 1058605713)
 (.leaf 1058610872)))
 (.node 2 (.node 1 (.leaf 1058612332)
 (.leaf 1058613808))
 (.node 1 (.leaf 1058615486)
 (.leaf 1058617163))))
 (.node 4 (.node 2 (.node 1 (.leaf 1058617164)
 (.leaf 1058623505))
 (.node 1 (.leaf 1058624503)
 (.leaf 1058626223)))
 (.node 2 (.node 1 (.leaf 1058629746)
 (.leaf 1058632264))
 (.node 1 (.leaf 1058636039)
 (.leaf 1058638082)))))
 (.node 8 (.node 4 (.node 2 (.node 1 (.leaf 1058640065)
 (.leaf 1058640593))
 (.node 1 (.leaf 1058642329)
 (.leaf 1058642330)))
 (.node 2 (.node 1 (.leaf 1058642545)
 (.leaf 1058643094))
 (.node 1 (.leaf 1058643940)
 (.leaf 1058645055))))
 (.node 4 (.node 2 (.node 1 (.leaf 1058645853)
 (.leaf 1058646524))
 (.node 1 (.leaf 1058652396)
 (.leaf 1058652799)))
 (.node 2 (.node 1 (.leaf 1058657680)
 (.leaf 1058660197))
 (.node 1 (.leaf 1058665817)
 (.leaf 1058669173))))))
 (.node 16 (.node 8 (.node 4 (.node 2 (.node 1 (.leaf 1058670011)
 (.leaf 1058670012))
 (.node 1 (.leaf 1058672528)
 (.leaf 1058672947)))
 (.node 2 (.node 1 (.leaf 1058673711)
 (.leaf 1058678568))
 (.node 1 (.leaf 1058678820)
 (.leaf 1058682091))))
 (.node 4 (.node 2 (.node 1 (.leaf 1058685654)
 (.leaf 1058687628))
 (.node 1 (.leaf 1058689577)
 (.leaf 1058689641)))
 (.node 2 (.node 1 (.leaf 1058689683)
 (.leaf 1058691151))
 (.node 1 (.leaf 1058692473)
 (.leaf 1058693668)))))
 (.node 8 (.node 4 (.node 2 (.node 1 (.leaf 1058694703)
 (.leaf 1058696377))
 (.node 1 (.leaf 1058697492)
 (.leaf 1058697904)))
 (.node 2 (.node 1 (.leaf 1058702036)
 (.leaf 1058702099))
 (.node 1 (.leaf 1058705244)
 (.leaf 1058707760))))
 (.node 4 (.node 2 (.node 1 (.leaf 1058709648)
 (.leaf 1058712794))
 (.node 1 (.leaf 1058717826)
 (.leaf 1058722860)))
 (.node 2 (.node 1 (.leaf 1058726089)
 (.leaf 1058727692))
 (.node 1 (.leaf 1058728732)
 (.leaf 1058731920))))))))
 (.node 64 (.node 32 (.node 16 (.node 8 (.node 4 (.node 2 (.node 1 (.leaf 1058733136)
 (.leaf 1058737657))
 (.node 1 (.leaf 1058738236)
 (.leaf 1058739218)))
 (.node 2 (.node 1 (.leaf 1058746862)
 (.leaf 1058748655))
 (.node 1 (.leaf 1058748814)
 (.leaf 1058749284))))
 (.node 4 (.node 2 (.node 1 (.leaf 1058749918)
 (.leaf 1058753437))
 (.node 1 (.leaf 1058754128)
 (.leaf 1058761616)))
 (.node 2 (.node 1 (.leaf 1058766146)
 (.leaf 1058767781))
 (.node 1 (.leaf 1058768158)
 (.leaf 1058768159)))))
 (.node 8 (.node 4 (.node 2 (.node 1 (.leaf 1058770171)
 (.leaf 1058775708))
 (.node 1 (.leaf 1058779231)
 (.leaf 1058779736)))
 (.node 2 (.node 1 (.leaf 1058782167)
 (.leaf 1058783258))
 (.node 1 (.leaf 1058784516)
 (.leaf 1058787452))))
 (.node 4 (.node 2 (.node 1 (.leaf 1058788979)
 (.leaf 1058790808))
 (.node 1 (.leaf 1058792883)
 (.leaf 1058793324)))
 (.node 2 (.node 1 (.leaf 1058793325)
 (.leaf 1058796231))
 (.node 1 (.leaf 1058796470)
 (.leaf 1058800664))))))
 (.node 16 (.node 8 (.node 4 (.node 2 (.node 1 (.leaf 1058802585)
 (.leaf 1058804040))
 (.node 1 (.leaf 1058804598)
 (.leaf 1058809494)))
 (.node 2 (.node 1 (.leaf 1058813583)
 (.leaf 1058818490))
 (.node 1 (.leaf 1058818491)
 (.leaf 1058819497))))
 (.node 4 (.node 2 (.node 1 (.leaf 1058821846)
 (.leaf 1058822516))
 (.node 1 (.leaf 1058828556)
 (.leaf 1058830234)))
 (.node 2 (.node 1 (.leaf 1058832373)
 (.leaf 1058833439))
 (.node 1 (.leaf 1058835602)
 (.leaf 1058835603)))))
 (.node 8 (.node 4 (.node 2 (.node 1 (.leaf 1058837113)
 (.leaf 1058838245))
 (.node 1 (.leaf 1058840300)
 (.leaf 1058840301)))
 (.node 2 (.node 1 (.leaf 1058841769)
 (.leaf 1058842398))
 (.node 1 (.leaf 1058843618)
 (.leaf 1058843655))))
 (.node 4 (.node 2 (.node 1 (.leaf 1058843656)
 (.leaf 1058852045))
 (.node 1 (.leaf 1058853093)
 (.leaf 1058853689)))
 (.node 2 (.node 1 (.leaf 1058855641)
 (.leaf 1058856240))
 (.node 1 (.leaf 1058858151)
 (.leaf 1058860391)))))))
 (.node 32 (.node 16 (.node 8 (.node 4 (.node 2 (.node 1 (.leaf 1058865047)
 (.leaf 1058865550))
 (.node 1 (.leaf 1058872849)
 (.leaf 1058873855)))
 (.node 2 (.node 1 (.leaf 1058875886)
 (.leaf 1058881405))
 (.node 1 (.leaf 1058883921)
 (.leaf 1058885515))))
 (.node 4 (.node 2 (.node 1 (.leaf 1058886312)
 (.leaf 1058887143))
 (.node 1 (.leaf 1058889038)
 (.leaf 1058891974)))
 (.node 2 (.node 1 (.leaf 1058893988)
 (.leaf 1058894323))
 (.node 1 (.leaf 1058896084)
 (.leaf 1058896085)))))
 (.node 8 (.node 4 (.node 2 (.node 1 (.leaf 1058900698)
 (.leaf 1058903337))
 (.node 1 (.leaf 1058904053)
 (.leaf 1058904054)))
 (.node 2 (.node 1 (.leaf 1058906126)
 (.leaf 1058909275))
 (.node 1 (.leaf 1058910031)
 (.leaf 1058910346))))
 (.node 4 (.node 2 (.node 1 (.leaf 1058910576)
 (.leaf 1058911146))
 (.node 1 (.leaf 1058911147)
 (.leaf 1058911704)))
 (.node 2 (.node 1 (.leaf 1058912862)
 (.leaf 1058913617))
 (.node 1 (.leaf 1058925445)
 (.leaf 1058925864))))))
 (.node 16 (.node 8 (.node 4 (.node 2 (.node 1 (.leaf 1058926200)
 (.leaf 1058929220))
 (.node 1 (.leaf 1058934253)
 (.leaf 1058937608)))
 (.node 2 (.node 1 (.leaf 1058938657)
 (.leaf 1058939186))
 (.node 1 (.leaf 1058939915)
 (.leaf 1058942473))))
 (.node 4 (.node 2 (.node 1 (.leaf 1058945703)
 (.leaf 1058948345))
 (.node 1 (.leaf 1058950400)
 (.leaf 1058950401)))
 (.node 2 (.node 1 (.leaf 1058951869)
 (.leaf 1058956902))
 (.node 1 (.leaf 1058957741)
 (.leaf 1058958412)))))
 (.node 8 (.node 4 (.node 2 (.node 1 (.leaf 1058959338)
 (.leaf 1058961073))
 (.node 1 (.leaf 1058963026)
 (.leaf 1058964453)))
 (.node 2 (.node 1 (.leaf 1058965257)
 (.leaf 1058969485))
 (.node 1 (.leaf 1058975776)
 (.leaf 1058975777))))
 (.node 4 (.node 2 (.node 1 (.leaf 1058976280)
 (.leaf 1058977874))
 (.node 1 (.leaf 1058979552)
 (.leaf 1058984585)))
 (.node 2 (.node 1 (.leaf 1058986045)
 (.leaf 1058987101))
 (.node 1 (.leaf 1058989668)
 (.leaf 1058990122))))))))))
 (.node 256 (.node 128 (.node 64 (.node 32 (.node 16 (.node 8 (.node 4 (.node 2 (.node 1 (.leaf 1058991799)
 (.leaf 1058994651))
 (.node 1 (.leaf 1058995909)
 (.leaf 1058999432)))
 (.node 2 (.node 1 (.leaf 1059002368)
 (.leaf 1059004717))
 (.node 1 (.leaf 1059006479)
 (.leaf 1059007653))))
 (.node 4 (.node 2 (.node 1 (.leaf 1059011638)
 (.leaf 1059012770))
 (.node 1 (.leaf 1059013789)
 (.leaf 1059014242)))
 (.node 2 (.node 1 (.leaf 1059016520)
 (.leaf 1059018559))
 (.node 1 (.leaf 1059018810)
 (.leaf 1059018811)))))
 (.node 8 (.node 4 (.node 2 (.node 1 (.leaf 1059019367)
 (.leaf 1059020131))
 (.node 1 (.leaf 1059020501)
 (.leaf 1059023340)))
 (.node 2 (.node 1 (.leaf 1059023592)
 (.leaf 1059025982))
 (.node 1 (.leaf 1059032904)
 (.leaf 1059035558))))
 (.node 4 (.node 2 (.node 1 (.leaf 1059039949)
 (.leaf 1059039950))
 (.node 1 (.leaf 1059044940)
 (.leaf 1059044982)))
 (.node 2 (.node 1 (.leaf 1059044983)
 (.leaf 1059049345))
 (.node 1 (.leaf 1059051275)
 (.leaf 1059053161))))))
 (.node 16 (.node 8 (.node 4 (.node 2 (.node 1 (.leaf 1059056390)
 (.leaf 1059057565))
 (.node 1 (.leaf 1059059033)
 (.leaf 1059061089)))
 (.node 2 (.node 1 (.leaf 1059061844)
 (.leaf 1059062557))
 (.node 1 (.leaf 1059063437)
 (.leaf 1059067129))))
 (.node 4 (.node 2 (.node 1 (.leaf 1059069016)
 (.leaf 1059071826))
 (.node 1 (.leaf 1059072363)
 (.leaf 1059072374)))
 (.node 2 (.node 1 (.leaf 1059072666)
 (.leaf 1059073200))
 (.node 1 (.leaf 1059074618)
 (.leaf 1059076188)))))
 (.node 8 (.node 4 (.node 2 (.node 1 (.leaf 1059085248)
 (.leaf 1059092797))
 (.node 1 (.leaf 1059095314)
 (.leaf 1059095315)))
 (.node 2 (.node 1 (.leaf 1059098082)
 (.leaf 1059102780))
 (.node 1 (.leaf 1059106890)
 (.leaf 1059107897))))
 (.node 4 (.node 2 (.node 1 (.leaf 1059110414)
 (.leaf 1059113349))
 (.node 1 (.leaf 1059113350)
 (.leaf 1059115698)))
 (.node 2 (.node 1 (.leaf 1059117460)
 (.leaf 1059118634))
 (.node 1 (.leaf 1059119222)
 (.leaf 1059121487)))))))
 (.node 32 (.node 16 (.node 8 (.node 4 (.node 2 (.node 1 (.leaf 1059125916)
 (.leaf 1059126773))
 (.node 1 (.leaf 1059127589)
 (.leaf 1059128868)))
 (.node 2 (.node 1 (.leaf 1059133566)
 (.leaf 1059133567))
 (.node 1 (.leaf 1059143129)
 (.leaf 1059143632))))
 (.node 4 (.node 2 (.node 1 (.leaf 1059144840)
 (.leaf 1059145646))
 (.node 1 (.leaf 1059150679)
 (.leaf 1059151224)))
 (.node 2 (.node 1 (.leaf 1059152357)
 (.leaf 1059155083))
 (.node 1 (.leaf 1059156215)
 (.leaf 1059156677)))))
 (.node 8 (.node 4 (.node 2 (.node 1 (.leaf 1059160619)
 (.leaf 1059162255))
 (.node 1 (.leaf 1059164436)
 (.leaf 1059164520)))
 (.node 2 (.node 1 (.leaf 1059167666)
 (.leaf 1059170308))
 (.node 1 (.leaf 1059172363)
 (.leaf 1059173831))))
 (.node 4 (.node 2 (.node 1 (.leaf 1059174712)
 (.leaf 1059175006))
 (.node 1 (.leaf 1059175846)
 (.leaf 1059177516)))
 (.node 2 (.node 1 (.leaf 1059180879)
 (.leaf 1059181979))
 (.node 1 (.leaf 1059182563)
 (.leaf 1059183772))))))
 (.node 16 (.node 8 (.node 4 (.node 2 (.node 1 (.leaf 1059185911)
 (.leaf 1059190944))
 (.node 1 (.leaf 1059190945)
 (.leaf 1059204366)))
 (.node 2 (.node 1 (.leaf 1059205288)
 (.leaf 1059206044))
 (.node 1 (.leaf 1059213258)
 (.leaf 1059214348))))
 (.node 4 (.node 2 (.node 1 (.leaf 1059214852)
 (.leaf 1059218459))
 (.node 1 (.leaf 1059221143)
 (.leaf 1059221982)))
 (.node 2 (.node 1 (.leaf 1059221983)
 (.leaf 1059224919))
 (.node 1 (.leaf 1059226806)
 (.leaf 1059227267)))))
 (.node 8 (.node 4 (.node 2 (.node 1 (.leaf 1059229028)
 (.leaf 1059230203))
 (.node 1 (.leaf 1059230204)
 (.leaf 1059230790)))
 (.node 2 (.node 1 (.leaf 1059233021)
 (.leaf 1059234986))
 (.node 1 (.leaf 1059235811)
 (.leaf 1059236369))))
 (.node 4 (.node 2 (.node 1 (.leaf 1059242954)
 (.leaf 1059246309))
 (.node 1 (.leaf 1059249916)
 (.leaf 1059250713)))
 (.node 2 (.node 1 (.leaf 1059253162)
 (.leaf 1059261409))
 (.node 1 (.leaf 1059263086)
 (.leaf 1059266442))))))))
 (.node 64 (.node 32 (.node 16 (.node 8 (.node 4 (.node 2 (.node 1 (.leaf 1059268077)
 (.leaf 1059271475))
 (.node 1 (.leaf 1059272481)
 (.leaf 1059276298)))
 (.node 2 (.node 1 (.leaf 1059276299)
 (.leaf 1059279528))
 (.node 1 (.leaf 1059280199)
 (.leaf 1059282171))))
 (.node 4 (.node 2 (.node 1 (.leaf 1059284058)
 (.leaf 1059284225))
 (.node 1 (.leaf 1059284562)
 (.leaf 1059285693)))
 (.node 2 (.node 1 (.leaf 1059286574)
 (.leaf 1059286868))
 (.node 1 (.leaf 1059288527)
 (.leaf 1059289092)))))
 (.node 8 (.node 4 (.node 2 (.node 1 (.leaf 1059299996)
 (.leaf 1059302681))
 (.node 1 (.leaf 1059302932)
 (.leaf 1059304191)))
 (.node 2 (.node 1 (.leaf 1059304493)
 (.leaf 1059316773))
 (.node 1 (.leaf 1059316774)
 (.leaf 1059321806))))
 (.node 4 (.node 2 (.node 1 (.leaf 1059321807)
 (.leaf 1059326504))
 (.node 1 (.leaf 1059330614)
 (.leaf 1059330615)))
 (.node 2 (.node 1 (.leaf 1059334138)
 (.leaf 1059334389))
 (.node 1 (.leaf 1059334390)
 (.leaf 1059337074))))))
 (.node 16 (.node 8 (.node 4 (.node 2 (.node 1 (.leaf 1059339423)
 (.leaf 1059340681))
 (.node 1 (.leaf 1059341184)
 (.leaf 1059341185)))
 (.node 2 (.node 1 (.leaf 1059342358)
 (.leaf 1059342946))
 (.node 1 (.leaf 1059343199)
 (.leaf 1059344033))))
 (.node 4 (.node 2 (.node 1 (.leaf 1059344054)
 (.leaf 1059349728))
 (.node 1 (.leaf 1059353516)
 (.leaf 1059357039)))
 (.node 2 (.node 1 (.leaf 1059363078)
 (.leaf 1059365847))
 (.node 1 (.leaf 1059372138)
 (.leaf 1059372139)))))
 (.node 8 (.node 4 (.node 2 (.node 1 (.leaf 1059377046)
 (.leaf 1059377172))
 (.node 1 (.leaf 1059380526)
 (.leaf 1059380527)))
 (.node 2 (.node 1 (.leaf 1059381214)
 (.leaf 1059382406))
 (.node 1 (.leaf 1059384930)
 (.leaf 1059384931))))
 (.node 4 (.node 2 (.node 1 (.leaf 1059388748)
 (.leaf 1059391013))
 (.node 1 (.leaf 1059391978)
 (.leaf 1059393278)))
 (.node 2 (.node 1 (.leaf 1059394620)
 (.leaf 1059396675))
 (.node 1 (.leaf 1059397305)
 (.leaf 1059398143)))))))
 (.node 32 (.node 16 (.node 8 (.node 4 (.node 2 (.node 1 (.leaf 1059399023)
 (.leaf 1059399317))
 (.node 1 (.leaf 1059400375)
 (.leaf 1059402990)))
 (.node 2 (.node 1 (.leaf 1059404978)
 (.leaf 1059411397))
 (.node 1 (.leaf 1059414081)
 (.leaf 1059427504))))
 (.node 4 (.node 2 (.node 1 (.leaf 1059438689)
 (.leaf 1059439247))
 (.node 1 (.leaf 1059443358)
 (.leaf 1059446881)))
 (.node 2 (.node 1 (.leaf 1059447635)
 (.leaf 1059447636))
 (.node 1 (.leaf 1059449817)
 (.leaf 1059451033)))))
 (.node 8 (.node 4 (.node 2 (.node 1 (.leaf 1059452166)
 (.leaf 1059453927))
 (.node 1 (.leaf 1059455043)
 (.leaf 1059455101)))
 (.node 2 (.node 1 (.leaf 1059455601)
 (.leaf 1059455688))
 (.node 1 (.leaf 1059455689)
 (.leaf 1059470285))))
 (.node 4 (.node 2 (.node 1 (.leaf 1059471124)
 (.leaf 1059477834))
 (.node 1 (.leaf 1059477835)
 (.leaf 1059482868)))
 (.node 2 (.node 1 (.leaf 1059482869)
 (.leaf 1059485384))
 (.node 1 (.leaf 1059497967)
 (.leaf 1059497968))))))
 (.node 16 (.node 8 (.node 4 (.node 2 (.node 1 (.leaf 1059501784)
 (.leaf 1059504259))
 (.node 1 (.leaf 1059505014)
 (.leaf 1059507656)))
 (.node 2 (.node 1 (.leaf 1059508033)
 (.leaf 1059509712))
 (.node 1 (.leaf 1059511180)
 (.leaf 1059512060))))
 (.node 4 (.node 2 (.node 1 (.leaf 1059512353)
 (.leaf 1059515187))
 (.node 1 (.leaf 1059516842)
 (.leaf 1059520793)))
 (.node 2 (.node 1 (.leaf 1059523133)
 (.leaf 1059523134))
 (.node 1 (.leaf 1059535212)
 (.leaf 1059538232)))))
 (.node 8 (.node 4 (.node 2 (.node 1 (.leaf 1059538233)
 (.leaf 1059538400))
 (.node 1 (.leaf 1059549557)
 (.leaf 1059556688)))
 (.node 2 (.node 1 (.leaf 1059560211)
 (.leaf 1059560882))
 (.node 1 (.leaf 1059563147)
 (.leaf 1059563399))))
 (.node 4 (.node 2 (.node 1 (.leaf 1059565496)
 (.leaf 1059567257))
 (.node 1 (.leaf 1059568431)
 (.leaf 1059568432)))
 (.node 2 (.node 1 (.leaf 1059569018)
 (.leaf 1059571286))
 (.node 1 (.leaf 1059573465)
 (.leaf 1059579757)))))))))
 (.node 128 (.node 64 (.node 32 (.node 16 (.node 8 (.node 4 (.node 2 (.node 1 (.leaf 1059583950)
 (.leaf 1059585209))
 (.node 1 (.leaf 1059586048)
 (.leaf 1059587809)))
 (.node 2 (.node 1 (.leaf 1059592591)
 (.leaf 1059593598))
 (.node 1 (.leaf 1059614246)
 (.leaf 1059615408))))
 (.node 4 (.node 2 (.node 1 (.leaf 1059617506)
 (.leaf 1059618227))
 (.node 1 (.leaf 1059618638)
 (.leaf 1059621280)))
 (.node 2 (.node 1 (.leaf 1059623335)
 (.leaf 1059624803))
 (.node 1 (.leaf 1059625684)
 (.leaf 1059625977)))))
 (.node 8 (.node 4 (.node 2 (.node 1 (.leaf 1059628829)
 (.leaf 1059631346))
 (.node 1 (.leaf 1059633234)
 (.leaf 1059637135)))
 (.node 2 (.node 1 (.leaf 1059637890)
 (.leaf 1059642251))
 (.node 1 (.leaf 1059644767)
 (.leaf 1059645766))))
 (.node 4 (.node 2 (.node 1 (.leaf 1059648962)
 (.leaf 1059648963))
 (.node 1 (.leaf 1059649969)
 (.leaf 1059662111)))
 (.node 2 (.node 1 (.leaf 1059669095)
 (.leaf 1059671486))
 (.node 1 (.leaf 1059672203)
 (.leaf 1059674128))))))
 (.node 16 (.node 8 (.node 4 (.node 2 (.node 1 (.leaf 1059674129)
 (.leaf 1059677064))
 (.node 1 (.leaf 1059678847)
 (.leaf 1059679413)))
 (.node 2 (.node 1 (.leaf 1059681175)
 (.leaf 1059682349))
 (.node 1 (.leaf 1059682936)
 (.leaf 1059689227))))
 (.node 4 (.node 2 (.node 1 (.leaf 1059689228)
 (.leaf 1059693002))
 (.node 1 (.leaf 1059699293)
 (.leaf 1059700175)))
 (.node 2 (.node 1 (.leaf 1059704956)
 (.leaf 1059705585))
 (.node 1 (.leaf 1059707347)
 (.leaf 1059711877)))))
 (.node 8 (.node 4 (.node 2 (.node 1 (.leaf 1059727480)
 (.leaf 1059730752))
 (.node 1 (.leaf 1059732848)
 (.leaf 1059732849)))
 (.node 2 (.node 1 (.leaf 1059735491)
 (.leaf 1059735659))
 (.node 1 (.leaf 1059737546)
 (.leaf 1059739014))))
 (.node 4 (.node 2 (.node 1 (.leaf 1059739895)
 (.leaf 1059740189))
 (.node 1 (.leaf 1059745905)
 (.leaf 1059747109)))
 (.node 2 (.node 1 (.leaf 1059749625)
 (.leaf 1059749626))
 (.node 1 (.leaf 1059756337)
 (.leaf 1059764725)))))))
 (.node 32 (.node 16 (.node 8 (.node 4 (.node 2 (.node 1 (.leaf 1059764726)
 (.leaf 1059765934))
 (.node 1 (.leaf 1059766402)
 (.leaf 1059777950)))
 (.node 2 (.node 1 (.leaf 1059779825)
 (.leaf 1059780353))
 (.node 1 (.leaf 1059783536)
 (.leaf 1059785865))))
 (.node 4 (.node 2 (.node 1 (.leaf 1059787374)
 (.leaf 1059787375))
 (.node 1 (.leaf 1059791569)
 (.leaf 1059793917)))
 (.node 2 (.node 1 (.leaf 1059795679)
 (.leaf 1059796853))
 (.node 1 (.leaf 1059797441)
 (.leaf 1059804990)))))
 (.node 8 (.node 4 (.node 2 (.node 1 (.leaf 1059806249)
 (.leaf 1059810024))
 (.node 1 (.leaf 1059811597)
 (.leaf 1059811702)))
 (.node 2 (.node 1 (.leaf 1059812540)
 (.leaf 1059817271))
 (.node 1 (.leaf 1059822103)
 (.leaf 1059822104))))
 (.node 4 (.node 2 (.node 1 (.leaf 1059824520)
 (.leaf 1059827219))
 (.node 1 (.leaf 1059843998)
 (.leaf 1059844249)))
 (.node 2 (.node 1 (.leaf 1059850288)
 (.leaf 1059850289))
 (.node 1 (.leaf 1059852344)
 (.leaf 1059853183))))))
 (.node 16 (.node 8 (.node 4 (.node 2 (.node 1 (.leaf 1059853812)
 (.leaf 1059854378))
 (.node 1 (.leaf 1059854693)
 (.leaf 1059854987)))
 (.node 2 (.node 1 (.leaf 1059860355)
 (.leaf 1059862872))
 (.node 1 (.leaf 1059866144)
 (.leaf 1059870422))))
 (.node 4 (.node 2 (.node 1 (.leaf 1059871680)
 (.leaf 1059873777))
 (.node 1 (.leaf 1059879481)
 (.leaf 1059882500)))
 (.node 2 (.node 1 (.leaf 1059883105)
 (.leaf 1059888037))
 (.node 1 (.leaf 1059888038)
 (.leaf 1059889044)))))
 (.node 8 (.node 4 (.node 2 (.node 1 (.leaf 1059896056)
 (.leaf 1059900620))
 (.node 1 (.leaf 1059900621)
 (.leaf 1059902634)))
 (.node 2 (.node 1 (.leaf 1059909009)
 (.leaf 1059910771))
 (.node 1 (.leaf 1059911946)
 (.leaf 1059912533))))
 (.node 4 (.node 2 (.node 1 (.leaf 1059913203)
 (.leaf 1059919747))
 (.node 1 (.leaf 1059920754)
 (.leaf 1059921961)))
 (.node 2 (.node 1 (.leaf 1059928092)
 (.leaf 1059928093))
 (.node 1 (.leaf 1059930819)
 (.leaf 1059930820))))))))
 (.node 64 (.node 32 (.node 16 (.node 8 (.node 4 (.node 2 (.node 1 (.leaf 1059932078)
 (.leaf 1059934595))
 (.node 1 (.leaf 1059936860)
 (.leaf 1059941388)))
 (.node 2 (.node 1 (.leaf 1059948587)
 (.leaf 1059948855))
 (.node 1 (.leaf 1059951993)
 (.leaf 1059955985))))
 (.node 4 (.node 2 (.node 1 (.leaf 1059961019)
 (.leaf 1059963535))
 (.node 1 (.leaf 1059967729)
 (.leaf 1059969198)))
 (.node 2 (.node 1 (.leaf 1059970079)
 (.leaf 1059970372))
 (.node 1 (.leaf 1059978635)
 (.leaf 1059979138)))))
 (.node 8 (.node 4 (.node 2 (.node 1 (.leaf 1059982410)
 (.leaf 1059985102))
 (.node 1 (.leaf 1059989959)
 (.leaf 1059991218)))
 (.node 2 (.node 1 (.leaf 1059994992)
 (.leaf 1059997928))
 (.node 1 (.leaf 1059999673)
 (.leaf 1060009672))))
 (.node 4 (.node 2 (.node 1 (.leaf 1060011602)
 (.leaf 1060019404))
 (.node 1 (.leaf 1060026450)
 (.leaf 1060027624)))
 (.node 2 (.node 1 (.leaf 1060028212)
 (.leaf 1060036516))
 (.node 1 (.leaf 1060038529)
 (.leaf 1060049099))))))
 (.node 16 (.node 8 (.node 4 (.node 2 (.node 1 (.leaf 1060050818)
 (.leaf 1060051615))
 (.node 1 (.leaf 1060051616)
 (.leaf 1060056398)))
 (.node 2 (.node 1 (.leaf 1060060004)
 (.leaf 1060065242))
 (.node 1 (.leaf 1060065960)
 (.leaf 1060070489))))
 (.node 4 (.node 2 (.node 1 (.leaf 1060075523)
 (.leaf 1060077789))
 (.node 1 (.leaf 1060081500)
 (.leaf 1060083073)))
 (.node 2 (.node 1 (.leaf 1060085170)
 (.leaf 1060086051))
 (.node 1 (.leaf 1060086345)
 (.leaf 1060089364)))))
 (.node 8 (.node 4 (.node 2 (.node 1 (.leaf 1060091818)
 (.leaf 1060094398))
 (.node 1 (.leaf 1060097921)
 (.leaf 1060108239)))
 (.node 2 (.node 1 (.leaf 1060111384)
 (.leaf 1060112013))
 (.node 1 (.leaf 1060112014)
 (.leaf 1060115369))))
 (.node 4 (.node 2 (.node 1 (.leaf 1060118053)
 (.leaf 1060119752))
 (.node 1 (.leaf 1060122080)
 (.leaf 1060127113)))
 (.node 2 (.node 1 (.leaf 1060131307)
 (.leaf 1060133757))
 (.node 1 (.leaf 1060143890)
 (.leaf 1060143891)))))))
 (.node 32 (.node 16 (.node 8 (.node 4 (.node 2 (.node 1 (.leaf 1060144478)
 (.leaf 1060152278))
 (.node 1 (.leaf 1060152279)
 (.leaf 1060157313)))
 (.node 2 (.node 1 (.leaf 1060159199)
 (.leaf 1060167378))
 (.node 1 (.leaf 1060171153)
 (.leaf 1060171154))))
 (.node 4 (.node 2 (.node 1 (.leaf 1060172411)
 (.leaf 1060172412))
 (.node 1 (.leaf 1060173544)
 (.leaf 1060176102)))
 (.node 2 (.node 1 (.leaf 1060179122)
 (.leaf 1060184156))
 (.node 1 (.leaf 1060190866)
 (.leaf 1060192124)))))
 (.node 8 (.node 4 (.node 2 (.node 1 (.leaf 1060195061)
 (.leaf 1060199843))
 (.node 1 (.leaf 1060202073)
 (.leaf 1060202610)))
 (.node 2 (.node 1 (.leaf 1060202611)
 (.leaf 1060202904))
 (.node 1 (.leaf 1060206234)
 (.leaf 1060215193))))
 (.node 4 (.node 2 (.node 1 (.leaf 1060215194)
 (.leaf 1060216704))
 (.node 1 (.leaf 1060220163)
 (.leaf 1060226518)))
 (.node 2 (.node 1 (.leaf 1060232809)
 (.leaf 1060232810))
 (.node 1 (.leaf 1060236836)
 (.leaf 1060240191))))))
 (.node 16 (.node 8 (.node 4 (.node 2 (.node 1 (.leaf 1060242876)
 (.leaf 1060246232))
 (.node 1 (.leaf 1060246651)
 (.leaf 1060252942)))
 (.node 2 (.node 1 (.leaf 1060256264)
 (.leaf 1060261331))
 (.node 1 (.leaf 1060262065)
 (.leaf 1060276095))))
 (.node 4 (.node 2 (.node 1 (.leaf 1060278107)
 (.leaf 1060278108))
 (.node 1 (.leaf 1060278737)
 (.leaf 1060281127)))
 (.node 2 (.node 1 (.leaf 1060282198)
 (.leaf 1060285658))
 (.node 1 (.leaf 1060290691)
 (.leaf 1060293207)))))
 (.node 8 (.node 4 (.node 2 (.node 1 (.leaf 1060293208)
 (.leaf 1060297569))
 (.node 1 (.leaf 1060301260)
 (.leaf 1060304280)))
 (.node 2 (.node 1 (.leaf 1060306629)
 (.leaf 1060308307))
 (.node 1 (.leaf 1060313759)
 (.leaf 1060319061))))
 (.node 4 (.node 2 (.node 1 (.leaf 1060320051)
 (.leaf 1060320235))
 (.node 1 (.leaf 1060323507)
 (.leaf 1060341022)))
 (.node 2 (.node 1 (.leaf 1060341023)
 (.leaf 1060343119))
 (.node 1 (.leaf 1060344797)
 (.leaf 1060352347))))))))))))))
 (.node 512 (.node 256 (.node 128 (.node 64 (.node 32 (.node 16 (.node 8 (.node 4 (.node 2 (.node 1 (.leaf 1060353605)
 (.leaf 1060353606))
 (.node 1 (.leaf 1060357954)
 (.leaf 1060358303)))
 (.node 2 (.node 1 (.leaf 1060362329)
 (.leaf 1060365685))
 (.node 1 (.leaf 1060368369)
 (.leaf 1060370382))))
 (.node 4 (.node 2 (.node 1 (.leaf 1060370383)
 (.leaf 1060374576))
 (.node 1 (.leaf 1060403056)
 (.leaf 1060403853)))
 (.node 2 (.node 1 (.leaf 1060403937)
 (.leaf 1060408131))
 (.node 1 (.leaf 1060410228)
 (.leaf 1060410229)))))
 (.node 8 (.node 4 (.node 2 (.node 1 (.leaf 1060414004)
 (.leaf 1060419037))
 (.node 1 (.leaf 1060420044)
 (.leaf 1060423398)))
 (.node 2 (.node 1 (.leaf 1060427089)
 (.leaf 1060430109))
 (.node 1 (.leaf 1060432458)
 (.leaf 1060432459))))
 (.node 4 (.node 2 (.node 1 (.leaf 1060434136)
 (.leaf 1060435142))
 (.node 1 (.leaf 1060435394)
 (.leaf 1060447977)))
 (.node 2 (.node 1 (.leaf 1060454268)
 (.leaf 1060464839))
 (.node 1 (.leaf 1060466851)
 (.leaf 1060466852))))))
 (.node 16 (.node 8 (.node 4 (.node 2 (.node 1 (.leaf 1060468965)
 (.leaf 1060472514))
 (.node 1 (.leaf 1060473142)
 (.leaf 1060474402)))
 (.node 2 (.node 1 (.leaf 1060475660)
 (.leaf 1060479770))
 (.node 1 (.leaf 1060484468)
 (.leaf 1060486481))))
 (.node 4 (.node 2 (.node 1 (.leaf 1060488494)
 (.leaf 1060491849))
 (.node 1 (.leaf 1060494534)
 (.leaf 1060496212)))
 (.node 2 (.node 1 (.leaf 1060496548)
 (.leaf 1060497890))
 (.node 1 (.leaf 1060501077)
 (.leaf 1060510640)))))
 (.node 8 (.node 4 (.node 2 (.node 1 (.leaf 1060524985)
 (.leaf 1060529766))
 (.node 1 (.leaf 1060534799)
 (.leaf 1060534800)))
 (.node 2 (.node 1 (.leaf 1060537316)
 (.leaf 1060537736))
 (.node 1 (.leaf 1060538154)
 (.leaf 1060540504))))
 (.node 4 (.node 2 (.node 1 (.leaf 1060541720)
 (.leaf 1060545537))
 (.node 1 (.leaf 1060549899)
 (.leaf 1060553589)))
 (.node 2 (.node 1 (.leaf 1060554931)
 (.leaf 1060556609))
 (.node 1 (.leaf 1060556610)
 (.leaf 1060557029)))))))
 (.node 32 (.node 16 (.node 8 (.node 4 (.node 2 (.node 1 (.leaf 1060558959)
 (.leaf 1060560636))
 (.node 1 (.leaf 1060561643)
 (.leaf 1060561979)))
 (.node 2 (.node 1 (.leaf 1060565628)
 (.leaf 1060568018))
 (.node 1 (.leaf 1060580098)
 (.leaf 1060592681))))
 (.node 4 (.node 2 (.node 1 (.leaf 1060595198)
 (.leaf 1060597085))
 (.node 1 (.leaf 1060598973)
 (.leaf 1060602747)))
 (.node 2 (.node 1 (.leaf 1060603166)
 (.leaf 1060606606))
 (.node 1 (.leaf 1060611304)
 (.leaf 1060612109)))))
 (.node 8 (.node 4 (.node 2 (.node 1 (.leaf 1060613443)
 (.leaf 1060615330))
 (.node 1 (.leaf 1060617847)
 (.leaf 1060618685)))
 (.node 2 (.node 1 (.leaf 1060618686)
 (.leaf 1060621370))
 (.node 1 (.leaf 1060623383)
 (.leaf 1060624725))))
 (.node 4 (.node 2 (.node 1 (.leaf 1060625396)
 (.leaf 1060644773))
 (.node 1 (.leaf 1060655594)
 (.leaf 1060655595)))
 (.node 2 (.node 1 (.leaf 1060655596)
 (.leaf 1060660629))
 (.node 1 (.leaf 1060660998)
 (.leaf 1060665242))))))
 (.node 16 (.node 8 (.node 4 (.node 2 (.node 1 (.leaf 1060668178)
 (.leaf 1060672708))
 (.node 1 (.leaf 1060676798)
 (.leaf 1060677070)))
 (.node 2 (.node 1 (.leaf 1060680761)
 (.leaf 1060680762))
 (.node 1 (.leaf 1060686130)
 (.leaf 1060687053))))
 (.node 4 (.node 2 (.node 1 (.leaf 1060687808)
 (.leaf 1060688814))
 (.node 1 (.leaf 1060689150)
 (.leaf 1060698427)))
 (.node 2 (.node 1 (.leaf 1060709073)
 (.leaf 1060711464))
 (.node 1 (.leaf 1060718510)
 (.leaf 1060722285)))))
 (.node 8 (.node 4 (.node 2 (.node 1 (.leaf 1060722703)
 (.leaf 1060726462))
 (.node 1 (.leaf 1060733190)
 (.leaf 1060734113)))
 (.node 2 (.node 1 (.leaf 1060738810)
 (.leaf 1060738957))
 (.node 1 (.leaf 1060742838)
 (.leaf 1060746193))))
 (.node 4 (.node 2 (.node 1 (.leaf 1060746527)
 (.leaf 1060748877))
 (.node 1 (.leaf 1060750890)
 (.leaf 1060752232)))
 (.node 2 (.node 1 (.leaf 1060752903)
 (.leaf 1060768841))
 (.node 1 (.leaf 1060781424)
 (.leaf 1060783941))))))))
 (.node 64 (.node 32 (.node 16 (.node 8 (.node 4 (.node 2 (.node 1 (.leaf 1060783942)
 (.leaf 1060789812))
 (.node 1 (.leaf 1060798201)
 (.leaf 1060804703)))
 (.node 2 (.node 1 (.leaf 1060804912)
 (.leaf 1060806590))
 (.node 1 (.leaf 1060808604)
 (.leaf 1060811624))))
 (.node 4 (.node 2 (.node 1 (.leaf 1060813972)
 (.leaf 1060815650))
 (.node 1 (.leaf 1060816657)
 (.leaf 1060816992)))
 (.node 2 (.node 1 (.leaf 1060820482)
 (.leaf 1060825465))
 (.node 1 (.leaf 1060833014)
 (.leaf 1060839205)))))
 (.node 8 (.node 4 (.node 2 (.node 1 (.leaf 1060840563)
 (.leaf 1060840564))
 (.node 1 (.leaf 1060844340)
 (.leaf 1060845598)))
 (.node 2 (.node 1 (.leaf 1060847736)
 (.leaf 1060856921))
 (.node 1 (.leaf 1060863213)
 (.leaf 1060866989))))
 (.node 4 (.node 2 (.node 1 (.leaf 1060871015)
 (.leaf 1060874371))
 (.node 1 (.leaf 1060874537)
 (.leaf 1060874638)))
 (.node 2 (.node 1 (.leaf 1060877055)
 (.leaf 1060879068))
 (.node 1 (.leaf 1060880410)
 (.leaf 1060881081))))))
 (.node 16 (.node 8 (.node 4 (.node 2 (.node 1 (.leaf 1060883597)
 (.leaf 1060893161))
 (.node 1 (.leaf 1060897187)
 (.leaf 1060907253)))
 (.node 2 (.node 1 (.leaf 1060907254)
 (.leaf 1060913546))
 (.node 1 (.leaf 1060924030)
 (.leaf 1060928225))))
 (.node 4 (.node 2 (.node 1 (.leaf 1060935271)
 (.leaf 1060937118))
 (.node 1 (.leaf 1060940137)
 (.leaf 1060942486)))
 (.node 2 (.node 1 (.leaf 1060944163)
 (.leaf 1060945170))
 (.node 1 (.leaf 1060945505)
 (.leaf 1060945757)))))
 (.node 8 (.node 4 (.node 2 (.node 1 (.leaf 1060948374)
 (.leaf 1060951646))
 (.node 1 (.leaf 1060961360)
 (.leaf 1060964569)))
 (.node 2 (.node 1 (.leaf 1060965638)
 (.leaf 1060969665))
 (.node 1 (.leaf 1060970168)
 (.leaf 1060976837))))
 (.node 4 (.node 2 (.node 1 (.leaf 1060981593)
 (.leaf 1060982751))
 (.node 1 (.leaf 1060991138)
 (.leaf 1060993236)))
 (.node 2 (.node 1 (.leaf 1060993573)
 (.leaf 1061003220))
 (.node 1 (.leaf 1061005904)
 (.leaf 1061007916)))))))
 (.node 32 (.node 16 (.node 8 (.node 4 (.node 2 (.node 1 (.leaf 1061007917)
 (.leaf 1061009259))
 (.node 1 (.leaf 1061009930)
 (.leaf 1061025533)))
 (.node 2 (.node 1 (.leaf 1061033082)
 (.leaf 1061033083))
 (.node 1 (.leaf 1061034894)
 (.leaf 1061055732))))
 (.node 4 (.node 2 (.node 1 (.leaf 1061058248)
 (.leaf 1061060929))
 (.node 1 (.leaf 1061062611)
 (.leaf 1061067685)))
 (.node 2 (.node 1 (.leaf 1061073348)
 (.leaf 1061074354))
 (.node 1 (.leaf 1061074690)
 (.leaf 1061084118)))))
 (.node 8 (.node 4 (.node 2 (.node 1 (.leaf 1061089706)
 (.leaf 1061091631))
 (.node 1 (.leaf 1061095998)
 (.leaf 1061098766)))
 (.node 2 (.node 1 (.leaf 1061102288)
 (.leaf 1061120283))
 (.node 1 (.leaf 1061123260)
 (.leaf 1061125357))))
 (.node 4 (.node 2 (.node 1 (.leaf 1061127454)
 (.leaf 1061132739))
 (.node 1 (.leaf 1061135424)
 (.leaf 1061137437)))
 (.node 2 (.node 1 (.leaf 1061138779)
 (.leaf 1061138780))
 (.node 1 (.leaf 1061139450)
 (.leaf 1061140259))))))
 (.node 16 (.node 8 (.node 4 (.node 2 (.node 1 (.leaf 1061146329)
 (.leaf 1061153602))
 (.node 1 (.leaf 1061153879)
 (.leaf 1061158912)))
 (.node 2 (.node 1 (.leaf 1061160925)
 (.leaf 1061171494))
 (.node 1 (.leaf 1061179094)
 (.leaf 1061186305))))
 (.node 4 (.node 2 (.node 1 (.leaf 1061188271)
 (.leaf 1061192466))
 (.node 1 (.leaf 1061194396)
 (.leaf 1061196158)))
 (.node 2 (.node 1 (.leaf 1061196660)
 (.leaf 1061199177))
 (.node 1 (.leaf 1061201526)
 (.leaf 1061203204)))))
 (.node 8 (.node 4 (.node 2 (.node 1 (.leaf 1061204210)
 (.leaf 1061204211))
 (.node 1 (.leaf 1061218052)
 (.leaf 1061227161)))
 (.node 2 (.node 1 (.leaf 1061227866)
 (.leaf 1061240700))
 (.node 1 (.leaf 1061246992)
 (.leaf 1061253284))))
 (.node 4 (.node 2 (.node 1 (.leaf 1061259574)
 (.leaf 1061259575))
 (.node 1 (.leaf 1061262931)
 (.leaf 1061269641)))
 (.node 2 (.node 1 (.leaf 1061269642)
 (.leaf 1061282224))
 (.node 1 (.leaf 1061294807)
 (.leaf 1061309906)))))))))
 (.node 128 (.node 64 (.node 32 (.node 16 (.node 8 (.node 4 (.node 2 (.node 1 (.leaf 1061313682)
 (.leaf 1061318295))
 (.node 1 (.leaf 1061321692)
 (.leaf 1061326683)))
 (.node 2 (.node 1 (.leaf 1061327221)
 (.leaf 1061329704))
 (.node 1 (.leaf 1061330669)
 (.leaf 1061335073))))
 (.node 4 (.node 2 (.node 1 (.leaf 1061335074)
 (.leaf 1061346397))
 (.node 1 (.leaf 1061347656)
 (.leaf 1061351179)))
 (.node 2 (.node 1 (.leaf 1061356967)
 (.leaf 1061379112))
 (.node 1 (.leaf 1061379113)
 (.leaf 1061380371)))))
 (.node 8 (.node 4 (.node 2 (.node 1 (.leaf 1061383307)
 (.leaf 1061385655))
 (.node 1 (.leaf 1061393792)
 (.leaf 1061399833)))
 (.node 2 (.node 1 (.leaf 1061400504)
 (.leaf 1061400505))
 (.node 1 (.leaf 1061406610)
 (.leaf 1061410569))))
 (.node 4 (.node 2 (.node 1 (.leaf 1061410570)
 (.leaf 1061427633))
 (.node 1 (.leaf 1061428689)
 (.leaf 1061440518)))
 (.node 2 (.node 1 (.leaf 1061447061)
 (.leaf 1061448319))
 (.node 1 (.leaf 1061452849)
 (.leaf 1061460901))))))
 (.node 16 (.node 8 (.node 4 (.node 2 (.node 1 (.leaf 1061462160)
 (.leaf 1061463251))
 (.node 1 (.leaf 1061465935)
 (.leaf 1061465936)))
 (.node 2 (.node 1 (.leaf 1061471723)
 (.leaf 1061477007))
 (.node 1 (.leaf 1061481872)
 (.leaf 1061486067))))
 (.node 4 (.node 2 (.node 1 (.leaf 1061486068)
 (.leaf 1061513330))
 (.node 1 (.leaf 1061513750)
 (.leaf 1061517525)))
 (.node 2 (.node 1 (.leaf 1061521928)
 (.leaf 1061524773))
 (.node 1 (.leaf 1061528010)
 (.leaf 1061531366)))))
 (.node 8 (.node 4 (.node 2 (.node 1 (.leaf 1061531367)
 (.leaf 1061532058))
 (.node 1 (.leaf 1061553176)
 (.leaf 1061554015)))
 (.node 2 (.node 1 (.leaf 1061555399)
 (.leaf 1061567856))
 (.node 1 (.leaf 1061578342)
 (.leaf 1061580440))))
 (.node 4 (.node 2 (.node 1 (.leaf 1061586731)
 (.leaf 1061590064))
 (.node 1 (.leaf 1061593651)
 (.leaf 1061595118)))
 (.node 2 (.node 1 (.leaf 1061596797)
 (.leaf 1061597636))
 (.node 1 (.leaf 1061598140)
 (.leaf 1061611897)))))))
 (.node 32 (.node 16 (.node 8 (.node 4 (.node 2 (.node 1 (.leaf 1061621309)
 (.leaf 1061621963))
 (.node 1 (.leaf 1061624479)
 (.leaf 1061647130)))
 (.node 2 (.node 1 (.leaf 1061655937)
 (.leaf 1061662165))
 (.node 1 (.leaf 1061662228)
 (.leaf 1061678989))))
 (.node 4 (.node 2 (.node 1 (.leaf 1061689911)
 (.leaf 1061694063))
 (.node 1 (.leaf 1061694440)
 (.leaf 1061695782)))
 (.node 2 (.node 1 (.leaf 1061695783)
 (.leaf 1061696454))
 (.node 1 (.leaf 1061712560)
 (.leaf 1061713819)))))
 (.node 8 (.node 4 (.node 2 (.node 1 (.leaf 1061725143)
 (.leaf 1061729337))
 (.node 1 (.leaf 1061749050)
 (.leaf 1061751348)))
 (.node 2 (.node 1 (.leaf 1061757858)
 (.leaf 1061763395))
 (.node 1 (.leaf 1061767085)
 (.leaf 1061768176))))
 (.node 4 (.node 2 (.node 1 (.leaf 1061770315)
 (.leaf 1061780508))
 (.node 1 (.leaf 1061788057)
 (.leaf 1061794349)))
 (.node 2 (.node 1 (.leaf 1061794474)
 (.leaf 1061796446))
 (.node 1 (.leaf 1061825806)
 (.leaf 1061825807))))))
 (.node 16 (.node 8 (.node 4 (.node 2 (.node 1 (.leaf 1061830336)
 (.leaf 1061835621))
 (.node 1 (.leaf 1061838389)
 (.leaf 1061842415)))
 (.node 2 (.node 1 (.leaf 1061844680)
 (.leaf 1061846274))
 (.node 1 (.leaf 1061847198)
 (.leaf 1061853874))))
 (.node 4 (.node 2 (.node 1 (.leaf 1061853993)
 (.leaf 1061861458))
 (.node 1 (.leaf 1061863554)
 (.leaf 1061863555)))
 (.node 2 (.node 1 (.leaf 1061887714)
 (.leaf 1061893754))
 (.node 1 (.leaf 1061904902)
 (.leaf 1061909692)))))
 (.node 8 (.node 4 (.node 2 (.node 1 (.leaf 1061911873)
 (.leaf 1061913887))
 (.node 1 (.leaf 1061914515)
 (.leaf 1061918395)))
 (.node 2 (.node 1 (.leaf 1061930663)
 (.leaf 1061930747))
 (.node 1 (.leaf 1061932761)
 (.leaf 1061934858))))
 (.node 4 (.node 2 (.node 1 (.leaf 1061939052)
 (.leaf 1061942450))
 (.node 1 (.leaf 1061957046)
 (.leaf 1061957775)))
 (.node 2 (.node 1 (.leaf 1061961702)
 (.leaf 1061964218))
 (.node 1 (.leaf 1061972673)
 (.leaf 1061973026))))))))
 (.node 64 (.node 32 (.node 16 (.node 8 (.node 4 (.node 2 (.node 1 (.leaf 1061976172)
 (.leaf 1061980995))
 (.node 1 (.leaf 1061984351)
 (.leaf 1061988125)))
 (.node 2 (.node 1 (.leaf 1061989820)
 (.leaf 1061992907))
 (.node 1 (.leaf 1061997772)
 (.leaf 1061998884))))
 (.node 4 (.node 2 (.node 1 (.leaf 1062001966)
 (.leaf 1062008258))
 (.node 1 (.leaf 1062026378)
 (.leaf 1062029650)))
 (.node 2 (.node 1 (.leaf 1062034682)
 (.leaf 1062035564))
 (.node 1 (.leaf 1062046699)
 (.leaf 1062052298)))))
 (.node 8 (.node 4 (.node 2 (.node 1 (.leaf 1062059848)
 (.leaf 1062062721))
 (.node 1 (.leaf 1062069705)
 (.leaf 1062071173)))
 (.node 2 (.node 1 (.leaf 1062077465)
 (.leaf 1062081658))
 (.node 1 (.leaf 1062097170)
 (.leaf 1062097597))))
 (.node 4 (.node 2 (.node 1 (.leaf 1062105146)
 (.leaf 1062117226))
 (.node 1 (.leaf 1062123601)
 (.leaf 1062139540)))
 (.node 2 (.node 1 (.leaf 1062140379)
 (.leaf 1062155058))
 (.node 1 (.leaf 1062165042)
 (.leaf 1062165544))))))
 (.node 16 (.node 8 (.node 4 (.node 2 (.node 1 (.leaf 1062165545)
 (.leaf 1062167961))
 (.node 1 (.leaf 1062173409)
 (.leaf 1062175610)))
 (.node 2 (.node 1 (.leaf 1062193730)
 (.leaf 1062194904))
 (.node 1 (.leaf 1062203293)
 (.leaf 1062206120))))
 (.node 4 (.node 2 (.node 1 (.leaf 1062207823)
 (.leaf 1062209031))
 (.node 1 (.leaf 1062209585)
 (.leaf 1062228460)))
 (.node 2 (.node 1 (.leaf 1062241042)
 (.leaf 1062243140))
 (.node 1 (.leaf 1062246075)
 (.leaf 1062258280)))))
 (.node 8 (.node 4 (.node 2 (.node 1 (.leaf 1062258281)
 (.leaf 1062266207))
 (.node 1 (.leaf 1062275015)
 (.leaf 1062275016)))
 (.node 2 (.node 1 (.leaf 1062278791)
 (.leaf 1062279000))
 (.node 1 (.leaf 1062281424)
 (.leaf 1062282189))))
 (.node 4 (.node 2 (.node 1 (.leaf 1062284579)
 (.leaf 1062301860))
 (.node 1 (.leaf 1062303705)
 (.leaf 1062310248)))
 (.node 2 (.node 1 (.leaf 1062316539)
 (.leaf 1062316540))
 (.node 1 (.leaf 1062318654)
 (.leaf 1062324189)))))))
 (.node 32 (.node 16 (.node 8 (.node 4 (.node 2 (.node 1 (.leaf 1062337510)
 (.leaf 1062346738))
 (.node 1 (.leaf 1062347997)
 (.leaf 1062351121)))
 (.node 2 (.node 1 (.leaf 1062354707)
 (.leaf 1062361083))
 (.node 1 (.leaf 1062375260)
 (.leaf 1062375956))))
 (.node 4 (.node 2 (.node 1 (.leaf 1062378146)
 (.leaf 1062387004))
 (.node 1 (.leaf 1062392036)
 (.leaf 1062398077)))
 (.node 2 (.node 1 (.leaf 1062403362)
 (.leaf 1062408814))
 (.node 1 (.leaf 1062416951)
 (.leaf 1062417203)))))
 (.node 8 (.node 4 (.node 2 (.node 1 (.leaf 1062418460)
 (.leaf 1062418461))
 (.node 1 (.leaf 1062422047)
 (.leaf 1062423242)))
 (.node 2 (.node 1 (.leaf 1062428175)
 (.leaf 1062430414))
 (.node 1 (.leaf 1062431295)
 (.leaf 1062432034))))
 (.node 4 (.node 2 (.node 1 (.leaf 1062434400)
 (.leaf 1062442369))
 (.node 1 (.leaf 1062448660)
 (.leaf 1062457468)))
 (.node 2 (.node 1 (.leaf 1062467534)
 (.leaf 1062469863))
 (.node 1 (.leaf 1062480118)
 (.leaf 1062490183))))))
 (.node 16 (.node 8 (.node 4 (.node 2 (.node 1 (.leaf 1062490184)
 (.leaf 1062495363))
 (.node 1 (.leaf 1062499746)
 (.leaf 1062501030)))
 (.node 2 (.node 1 (.leaf 1062503332)
 (.leaf 1062506121))
 (.node 1 (.leaf 1062515350)
 (.leaf 1062522061))))
 (.node 4 (.node 2 (.node 1 (.leaf 1062527933)
 (.leaf 1062539006))
 (.node 1 (.leaf 1062540390)
 (.leaf 1062543031)))
 (.node 2 (.node 1 (.leaf 1062543032)
 (.leaf 1062551421))
 (.node 1 (.leaf 1062556999)
 (.leaf 1062559642)))))
 (.node 8 (.node 4 (.node 2 (.node 1 (.leaf 1062561906)
 (.leaf 1062567484))
 (.node 1 (.leaf 1062571721)
 (.leaf 1062572266)))
 (.node 2 (.node 1 (.leaf 1062576250)
 (.leaf 1062581829))
 (.node 1 (.leaf 1062588331)
 (.leaf 1062595461))))
 (.node 4 (.node 2 (.node 1 (.leaf 1062598397)
 (.leaf 1062618530))
 (.node 1 (.leaf 1062620627)
 (.leaf 1062622724)))
 (.node 2 (.node 1 (.leaf 1062633629)
 (.leaf 1062636648))
 (.node 1 (.leaf 1062644785)
 (.leaf 1062649168))))))))))
 (.node 256 (.node 128 (.node 64 (.node 32 (.node 16 (.node 8 (.node 4 (.node 2 (.node 1 (.leaf 1062649667)
 (.leaf 1062651295))
 (.node 1 (.leaf 1062652754)
 (.leaf 1062657537)))
 (.node 2 (.node 1 (.leaf 1062661311)
 (.leaf 1062668861))
 (.node 1 (.leaf 1062681444)
 (.leaf 1062694027))))
 (.node 4 (.node 2 (.node 1 (.leaf 1062698221)
 (.leaf 1062705351))
 (.node 1 (.leaf 1062705352)
 (.leaf 1062705654)))
 (.node 2 (.node 1 (.leaf 1062711727)
 (.leaf 1062717305))
 (.node 1 (.leaf 1062717481)
 (.leaf 1062722086)))))
 (.node 8 (.node 4 (.node 2 (.node 1 (.leaf 1062723621)
 (.leaf 1062726071))
 (.node 1 (.leaf 1062729258)
 (.leaf 1062733244)))
 (.node 2 (.node 1 (.leaf 1062734292)
 (.leaf 1062742261))
 (.node 1 (.leaf 1062755683)
 (.leaf 1062765330))))
 (.node 4 (.node 2 (.node 1 (.leaf 1062769524)
 (.leaf 1062775816))
 (.node 1 (.leaf 1062777074)
 (.leaf 1062781604)))
 (.node 2 (.node 1 (.leaf 1062783848)
 (.leaf 1062789825))
 (.node 1 (.leaf 1062795005)
 (.leaf 1062799387))))))
 (.node 16 (.node 8 (.node 4 (.node 2 (.node 1 (.leaf 1062799388)
 (.leaf 1062800931))
 (.node 1 (.leaf 1062805763)
 (.leaf 1062807274)))
 (.node 2 (.node 1 (.leaf 1062807755)
 (.leaf 1062808951))
 (.node 1 (.leaf 1062815662)
 (.leaf 1062829922))))
 (.node 4 (.node 2 (.node 1 (.leaf 1062836633)
 (.leaf 1062845022))
 (.node 1 (.leaf 1062848796)
 (.leaf 1062851816)))
 (.node 2 (.node 1 (.leaf 1062853410)
 (.leaf 1062855969))
 (.node 1 (.leaf 1062862344)
 (.leaf 1062867302)))))
 (.node 8 (.node 4 (.node 2 (.node 1 (.leaf 1062867923)
 (.leaf 1062870390))
 (.node 1 (.leaf 1062876688)
 (.leaf 1062876689)))
 (.node 2 (.node 1 (.leaf 1062879876)
 (.leaf 1062880255))
 (.node 1 (.leaf 1062882267)
 (.leaf 1062883861))))
 (.node 4 (.node 2 (.node 1 (.leaf 1062884658)
 (.leaf 1062889063))
 (.node 1 (.leaf 1062904161)
 (.leaf 1062920519)))
 (.node 2 (.node 1 (.leaf 1062931005)
 (.leaf 1062933404))
 (.node 1 (.leaf 1062934864)
 (.leaf 1062939444)))))))
 (.node 32 (.node 16 (.node 8 (.node 4 (.node 2 (.node 1 (.leaf 1062940841)
 (.leaf 1062944678))
 (.node 1 (.leaf 1062946020)
 (.leaf 1062953236)))
 (.node 2 (.node 1 (.leaf 1062953990)
 (.leaf 1062953991))
 (.node 1 (.leaf 1062956779)
 (.leaf 1062958771))))
 (.node 4 (.node 2 (.node 1 (.leaf 1062959967)
 (.leaf 1062960365))
 (.node 1 (.leaf 1062962463)
 (.leaf 1062978400)))
 (.node 2 (.node 1 (.leaf 1062996017)
 (.leaf 1063000211))
 (.node 1 (.leaf 1063006284)
 (.leaf 1063008600)))))
 (.node 8 (.node 4 (.node 2 (.node 1 (.leaf 1063009321)
 (.leaf 1063013758))
 (.node 1 (.leaf 1063018364)
 (.leaf 1063023967)))
 (.node 2 (.node 1 (.leaf 1063024118)
 (.leaf 1063026216))
 (.node 1 (.leaf 1063028104)
 (.leaf 1063031291))))
 (.node 4 (.node 2 (.node 1 (.leaf 1063031292)
 (.leaf 1063032859))
 (.node 1 (.leaf 1063033681)
 (.leaf 1063035275)))
 (.node 2 (.node 1 (.leaf 1063035863)
 (.leaf 1063036072))
 (.node 1 (.leaf 1063052640)
 (.leaf 1063071514))))))
 (.node 16 (.node 8 (.node 4 (.node 2 (.node 1 (.leaf 1063076128)
 (.leaf 1063079903))
 (.node 1 (.leaf 1063081442)
 (.leaf 1063086195)))
 (.node 2 (.node 1 (.leaf 1063092653)
 (.leaf 1063097833))
 (.node 1 (.leaf 1063099197)
 (.leaf 1063102217))))
 (.node 4 (.node 2 (.node 1 (.leaf 1063105337)
 (.leaf 1063109264))
 (.node 1 (.leaf 1063110584)
 (.leaf 1063111779)))
 (.node 2 (.node 1 (.leaf 1063112178)
 (.leaf 1063126880))
 (.node 1 (.leaf 1063147011)
 (.leaf 1063152044)))))
 (.node 8 (.node 4 (.node 2 (.node 1 (.leaf 1063156239)
 (.leaf 1063156599))
 (.node 1 (.leaf 1063159594)
 (.leaf 1063161582)))
 (.node 2 (.node 1 (.leaf 1063163789)
 (.leaf 1063169057))
 (.node 1 (.leaf 1063171548)
 (.leaf 1063172178))))
 (.node 4 (.node 2 (.node 1 (.leaf 1063180315)
 (.leaf 1063182664))
 (.node 1 (.leaf 1063183503)
 (.leaf 1063185867)))
 (.node 2 (.node 1 (.leaf 1063185893)
 (.leaf 1063188283))
 (.node 1 (.leaf 1063201119)
 (.leaf 1063222509))))))))
 (.node 64 (.node 32 (.node 16 (.node 8 (.node 4 (.node 2 (.node 1 (.leaf 1063227961)
 (.leaf 1063232575))
 (.node 1 (.leaf 1063236350)
 (.leaf 1063237155)))
 (.node 2 (.node 1 (.leaf 1063239286)
 (.leaf 1063241384))
 (.node 1 (.leaf 1063245263)
 (.leaf 1063248367))))
 (.node 4 (.node 2 (.node 1 (.leaf 1063256064)
 (.leaf 1063258413))
 (.node 1 (.leaf 1063263194)
 (.leaf 1063264389)))
 (.node 2 (.node 1 (.leaf 1063264787)
 (.leaf 1063275358))
 (.node 1 (.leaf 1063298007)
 (.leaf 1063303878)))))
 (.node 8 (.node 4 (.node 2 (.node 1 (.leaf 1063306916)
 (.leaf 1063308911))
 (.node 1 (.leaf 1063312729)
 (.leaf 1063313106)))
 (.node 2 (.node 1 (.leaf 1063316461)
 (.leaf 1063318978))
 (.node 1 (.leaf 1063318979)
 (.leaf 1063323408))))
 (.node 4 (.node 2 (.node 1 (.leaf 1063328290)
 (.leaf 1063329338))
 (.node 1 (.leaf 1063330018)
 (.leaf 1063333323)))
 (.node 2 (.node 1 (.leaf 1063336511)
 (.leaf 1063341291))
 (.node 1 (.leaf 1063342097)
 (.leaf 1063349597))))))
 (.node 16 (.node 8 (.node 4 (.node 2 (.node 1 (.leaf 1063373504)
 (.leaf 1063379796))
 (.node 1 (.leaf 1063385248)
 (.leaf 1063388302)))
 (.node 2 (.node 1 (.leaf 1063389861)
 (.leaf 1063393636))
 (.node 1 (.leaf 1063396572)
 (.leaf 1063396573))))
 (.node 4 (.node 2 (.node 1 (.leaf 1063398670)
 (.leaf 1063402004))
 (.node 1 (.leaf 1063411694)
 (.leaf 1063423836)))
 (.node 2 (.node 1 (.leaf 1063449002)
 (.leaf 1063455713))
 (.node 1 (.leaf 1063461585)
 (.leaf 1063466617)))))
 (.node 8 (.node 4 (.node 2 (.node 1 (.leaf 1063466618)
 (.leaf 1063470811))
 (.node 1 (.leaf 1063474167)
 (.leaf 1063474168)))
 (.node 2 (.node 1 (.leaf 1063476684)
 (.leaf 1063478362))
 (.node 1 (.leaf 1063482145)
 (.leaf 1063484637))))
 (.node 4 (.node 2 (.node 1 (.leaf 1063492706)
 (.leaf 1063495096))
 (.node 1 (.leaf 1063524499)
 (.leaf 1063531630)))
 (.node 2 (.node 1 (.leaf 1063537921)
 (.leaf 1063543374))
 (.node 1 (.leaf 1063547986)
 (.leaf 1063551761)))))))
 (.node 32 (.node 16 (.node 8 (.node 4 (.node 2 (.node 1 (.leaf 1063551762)
 (.leaf 1063554698))
 (.node 1 (.leaf 1063556795)
 (.leaf 1063558054)))
 (.node 2 (.node 1 (.leaf 1063559379)
 (.leaf 1063567517))
 (.node 1 (.leaf 1063569571)
 (.leaf 1063570804))))
 (.node 4 (.node 2 (.node 1 (.leaf 1063573619)
 (.leaf 1063599997))
 (.node 1 (.leaf 1063607546)
 (.leaf 1063614257)))
 (.node 2 (.node 1 (.leaf 1063615021)
 (.leaf 1063620129))
 (.node 1 (.leaf 1063625162)
 (.leaf 1063629356)))))
 (.node 8 (.node 4 (.node 2 (.node 1 (.leaf 1063629357)
 (.leaf 1063632712))
 (.node 1 (.leaf 1063635229)
 (.leaf 1063636907)))
 (.node 2 (.node 1 (.leaf 1063637745)
 (.leaf 1063641730))
 (.node 1 (.leaf 1063649699)
 (.leaf 1063649724))))
 (.node 4 (.node 2 (.node 1 (.leaf 1063675494)
 (.leaf 1063683463))
 (.node 1 (.leaf 1063690593)
 (.leaf 1063696885)))
 (.node 2 (.node 1 (.leaf 1063702338)
 (.leaf 1063706951))
 (.node 1 (.leaf 1063706952)
 (.leaf 1063710726))))))
 (.node 16 (.node 8 (.node 4 (.node 2 (.node 1 (.leaf 1063713662)
 (.leaf 1063715759))
 (.node 1 (.leaf 1063717018)
 (.leaf 1063717437)))
 (.node 2 (.node 1 (.leaf 1063724153)
 (.leaf 1063727000))
 (.node 1 (.leaf 1063759380)
 (.leaf 1063766930))))
 (.node 4 (.node 2 (.node 1 (.leaf 1063773641)
 (.leaf 1063779513))
 (.node 1 (.leaf 1063784546)
 (.leaf 1063784547)))
 (.node 2 (.node 1 (.leaf 1063788741)
 (.leaf 1063792096))
 (.node 1 (.leaf 1063794612)
 (.leaf 1063796290)))))
 (.node 8 (.node 4 (.node 2 (.node 1 (.leaf 1063797129)
 (.leaf 1063800316))
 (.node 1 (.leaf 1063802707)
 (.leaf 1063805099)))
 (.node 2 (.node 1 (.leaf 1063843266)
 (.leaf 1063850396))
 (.node 1 (.leaf 1063856688)
 (.leaf 1063862140))))
 (.node 4 (.node 2 (.node 1 (.leaf 1063862141)
 (.leaf 1063866755))
 (.node 1 (.leaf 1063870530)
 (.leaf 1063873465)))
 (.node 2 (.node 1 (.leaf 1063875562)
 (.leaf 1063876820))
 (.node 1 (.leaf 1063877240)
 (.leaf 1063927152)))))))))
 (.node 64 (.node 32 (.node 16 (.node 8 (.node 4 (.node 2 (.node 1 (.leaf 1063933863)
 (.leaf 1063939735))
 (.node 1 (.leaf 1063939736)
 (.leaf 1063944769)))
 (.node 2 (.node 1 (.leaf 1063948963)
 (.leaf 1063952319))
 (.node 1 (.leaf 1063954834)
 (.leaf 1063956512))))
 (.node 4 (.node 2 (.node 1 (.leaf 1063957351)
 (.leaf 1064011038))
 (.node 1 (.leaf 1064017329)
 (.leaf 1064017330)))
 (.node 2 (.node 1 (.leaf 1064022783)
 (.leaf 1064027397))
 (.node 1 (.leaf 1064031172)
 (.leaf 1064034108)))))
 (.node 8 (.node 4 (.node 2 (.node 1 (.leaf 1064036204)
 (.leaf 1064037462))
 (.node 1 (.leaf 1064037882)
 (.leaf 1064044749)))
 (.node 2 (.node 1 (.leaf 1064094924)
 (.leaf 1064094925))
 (.node 1 (.leaf 1064100797)
 (.leaf 1064105830))))
 (.node 4 (.node 2 (.node 1 (.leaf 1064110024)
 (.leaf 1064113380))
 (.node 1 (.leaf 1064115897)
 (.leaf 1064117573)))
 (.node 2 (.node 1 (.leaf 1064118412)
 (.leaf 1064178811))
 (.node 1 (.leaf 1064184264)
 (.leaf 1064188877))))))
 (.node 16 (.node 8 (.node 4 (.node 2 (.node 1 (.leaf 1064192652)
 (.leaf 1064195588))
 (.node 1 (.leaf 1064197685)
 (.leaf 1064198943)))
 (.node 2 (.node 1 (.leaf 1064199362)
 (.leaf 1064262697))
 (.node 1 (.leaf 1064267730)
 (.leaf 1064271924))))
 (.node 4 (.node 2 (.node 1 (.leaf 1064275280)
 (.leaf 1064277796))
 (.node 1 (.leaf 1064279474)
 (.leaf 1064280312)))
 (.node 2 (.node 1 (.leaf 1064346583)
 (.leaf 1064351197))
 (.node 1 (.leaf 1064354972)
 (.leaf 1064357908)))))
 (.node 8 (.node 4 (.node 2 (.node 1 (.leaf 1064360005)
 (.leaf 1064361263))
 (.node 1 (.leaf 1064361682)
 (.leaf 1064430469)))
 (.node 2 (.node 1 (.leaf 1064434663)
 (.leaf 1064438019))
 (.node 1 (.leaf 1064440535)
 (.leaf 1064442213))))
 (.node 4 (.node 2 (.node 1 (.leaf 1064443052)
 (.leaf 1064514355))
 (.node 1 (.leaf 1064518130)
 (.leaf 1064521066)))
 (.node 2 (.node 1 (.leaf 1064523163)
 (.leaf 1064524421))
 (.node 1 (.leaf 1064524842)
 (.leaf 1064598241)))))))
 (.node 16 (.node 8 (.node 4 (.node 2 (.node 1 (.leaf 1064601596)
 (.leaf 1064604113))
 (.node 1 (.leaf 1064605791)
 (.leaf 1064606631)))
 (.node 2 (.node 1 (.leaf 1064682127)
 (.leaf 1064685063))
 (.node 1 (.leaf 1064687160)
 (.leaf 1064688419))))
 (.node 4 (.node 2 (.node 1 (.leaf 1064688839)
 (.leaf 1064766013))
 (.node 1 (.leaf 1064768530)
 (.leaf 1064770208)))
 (.node 2 (.node 1 (.leaf 1064771047)
 (.leaf 1064849899))
 (.node 1 (.leaf 1064851997)
 (.leaf 1064853255)))))
 (.node 8 (.node 4 (.node 2 (.node 1 (.leaf 1064853675)
 (.leaf 1064933786))
 (.node 1 (.leaf 1064935464)
 (.leaf 1064936303)))
 (.node 2 (.node 1 (.leaf 1065017672)
 (.leaf 1065018930))
 (.node 1 (.leaf 1065019350)
 (.leaf 1065101558))))
 (.node 4 (.node 2 (.node 1 (.leaf 1065102397)
 (.leaf 1065185444))
 (.node 1 (.leaf 1065185863)
 (.leaf 1065269330)))
 (.leaf 1065353216))))))))

/-- Area of a cell (km²) by the row of the grid (0: no routed cell there), bits of the binary32 number. -/
def areaData : DTree :=
 (.node 256 (.node 128 (.node 64 (.node 32 (.node 16 (.node 8 (.node 4 (.node 2 (.node 1 (.leaf 0)
 (.leaf 0))
 (.node 1 (.leaf 0)
 (.leaf 0)))
 (.node 2 (.node 1 (.leaf 0)
 (.leaf 0))
 (.node 1 (.leaf 0)
 (.leaf 0))))
 (.node 4 (.node 2 (.node 1 (.leaf 0)
 (.leaf 0))
 (.node 1 (.leaf 0)
 (.leaf 0)))
 (.node 2 (.node 1 (.leaf 1135199038)
 (.leaf 1136084796))
 (.node 1 (.leaf 1136969567)
 (.leaf 1137853277)))))
 (.node 8 (.node 4 (.node 2 (.node 1 (.leaf 1138735855)
 (.leaf 1139617228))
 (.node 1 (.leaf 1140497325)
 (.leaf 1141113380)))
 (.node 2 (.node 1 (.leaf 1141552044)
 (.leaf 1141989961))
 (.node 1 (.leaf 1142427097)
 (.leaf 1142863415))))
 (.node 4 (.node 2 (.node 1 (.leaf 1143298881)
 (.leaf 1143733458))
 (.node 1 (.leaf 1144167112)
 (.leaf 1144599807)))
 (.node 2 (.node 1 (.leaf 1145031509)
 (.leaf 1145462182))
 (.node 1 (.leaf 1145891792)
 (.leaf 1146320303))))))
 (.node 16 (.node 8 (.node 4 (.node 2 (.node 1 (.leaf 1146747682)
 (.leaf 1147173895))
 (.node 1 (.leaf 1147598906)
 (.leaf 1148022682)))
 (.node 2 (.node 1 (.leaf 1148445188)
 (.leaf 1148866392))
 (.node 1 (.leaf 1149262778)
 (.leaf 1149472026))))
 (.node 4 (.node 2 (.node 1 (.leaf 1149680573)
 (.leaf 1149888402))
 (.node 1 (.leaf 1150095496)
 (.leaf 1150301839)))
 (.node 2 (.node 1 (.leaf 1150507415)
 (.leaf 1150712207))
 (.node 1 (.leaf 1150916200)
 (.leaf 1151119376)))))
 (.node 8 (.node 4 (.node 2 (.node 1 (.leaf 1151321721)
 (.leaf 1151523219))
 (.node 1 (.leaf 1151723854)
 (.leaf 1151923610)))
 (.node 2 (.node 1 (.leaf 1152122471)
 (.leaf 1152320423))
 (.node 1 (.leaf 1152517450)
 (.leaf 1152713537))))
 (.node 4 (.node 2 (.node 1 (.leaf 1152908668)
 (.leaf 1153102829))
 (.node 1 (.leaf 1153296005)
 (.leaf 1153488180)))
 (.node 2 (.node 1 (.leaf 1153679342)
 (.leaf 1153869474))
 (.node 1 (.leaf 1154058562)
 (.leaf 1154246593)))))))
 (.node 32 (.node 16 (.node 8 (.node 4 (.node 2 (.node 1 (.leaf 1154433551)
 (.leaf 1154619424))
 (.node 1 (.leaf 1154804196)
 (.leaf 1154987854)))
 (.node 2 (.node 1 (.leaf 1155170385)
 (.leaf 1155351774))
 (.node 1 (.leaf 1155532009)
 (.leaf 1155711075))))
 (.node 4 (.node 2 (.node 1 (.leaf 1155888960)
 (.leaf 1156065651))
 (.node 1 (.leaf 1156241134)
 (.leaf 1156415396)))
 (.node 2 (.node 1 (.leaf 1156588426)
 (.leaf 1156760210))
 (.node 1 (.leaf 1156930736)
 (.leaf 1157099992)))))
 (.node 8 (.node 4 (.node 2 (.node 1 (.leaf 1157267964)
 (.leaf 1157434642))
 (.node 1 (.leaf 1157600014)
 (.leaf 1157695985)))
 (.node 2 (.node 1 (.leaf 1157777346)
 (.leaf 1157858036))
 (.node 1 (.leaf 1157938050)
 (.leaf 1158017381))))
 (.node 4 (.node 2 (.node 1 (.leaf 1158096025)
 (.leaf 1158173974))
 (.node 1 (.leaf 1158251225)
 (.leaf 1158327772)))
 (.node 2 (.node 1 (.leaf 1158403609)
 (.leaf 1158478731))
 (.node 1 (.leaf 1158553133)
 (.leaf 1158626810))))))
 (.node 16 (.node 8 (.node 4 (.node 2 (.node 1 (.leaf 1158699757)
 (.leaf 1158771968))
 (.node 1 (.leaf 1158843439)
 (.leaf 1158914165)))
 (.node 2 (.node 1 (.leaf 1158984141)
 (.leaf 1159053362))
 (.node 1 (.leaf 1159121825)
 (.leaf 1159189523))))
 (.node 4 (.node 2 (.node 1 (.leaf 1159256453)
 (.leaf 1159322609))
 (.node 1 (.leaf 1159387989)
 (.leaf 1159452587)))
 (.node 2 (.node 1 (.leaf 1159516399)
 (.leaf 1159579421))
 (.node 1 (.leaf 1159641648)
 (.leaf 1159703077)))))
 (.node 8 (.node 4 (.node 2 (.node 1 (.leaf 1159763704)
 (.leaf 1159823524))
 (.node 1 (.leaf 1159882534)
 (.leaf 1159940730)))
 (.node 2 (.node 1 (.leaf 1159998108)
 (.leaf 1160054665))
 (.node 1 (.leaf 1160110397)
 (.leaf 1160165299))))
 (.node 4 (.node 2 (.node 1 (.leaf 1160219370)
 (.leaf 1160272605))
 (.node 1 (.leaf 1160325001)
 (.leaf 1160376554)))
 (.node 2 (.node 1 (.leaf 1160427262)
 (.leaf 1160477121))
 (.node 1 (.leaf 1160526128)
 (.leaf 1160574280))))))))
 (.node 64 (.node 32 (.node 16 (.node 8 (.node 4 (.node 2 (.node 1 (.leaf 1160621575)
 (.leaf 1160668008))
 (.node 1 (.leaf 1160713577)
 (.leaf 1160758280)))
 (.node 2 (.node 1 (.leaf 1160802113)
 (.leaf 1160845075))
 (.node 1 (.leaf 1160887161)
 (.leaf 1160928370))))
 (.node 4 (.node 2 (.node 1 (.leaf 1160968700)
 (.leaf 1161008147))
 (.node 1 (.leaf 1161046709)
 (.leaf 1161084384)))
 (.node 2 (.node 1 (.leaf 1161121170)
 (.leaf 1161157065))
 (.node 1 (.leaf 1161192066)
 (.leaf 1161226171)))))
 (.node 8 (.node 4 (.node 2 (.node 1 (.leaf 1161259378)
 (.leaf 1161291686))
 (.node 1 (.leaf 1161323091)
 (.leaf 1161353593)))
 (.node 2 (.node 1 (.leaf 1161383190)
 (.leaf 1161411879))
 (.node 1 (.leaf 1161439660)
 (.leaf 1161466530))))
 (.node 4 (.node 2 (.node 1 (.leaf 1161492488)
 (.leaf 1161517532))
 (.node 1 (.leaf 1161541661)
 (.leaf 1161564874)))
 (.node 2 (.node 1 (.leaf 1161587168)
 (.leaf 1161608544))
 (.node 1 (.leaf 1161628999)
 (.leaf 1161648532))))))
 (.node 16 (.node 8 (.node 4 (.node 2 (.node 1 (.leaf 1161667143)
 (.leaf 1161684830))
 (.node 1 (.leaf 1161701592)
 (.leaf 1161717428)))
 (.node 2 (.node 1 (.leaf 1161732337)
 (.leaf 1161746318))
 (.node 1 (.leaf 1161759371)
 (.leaf 1161771495))))
 (.node 4 (.node 2 (.node 1 (.leaf 1161782689)
 (.leaf 1161792953))
 (.node 1 (.leaf 1161802285)
 (.leaf 1161810685)))
 (.node 2 (.node 1 (.leaf 1161818154)
 (.leaf 1161824690))
 (.node 1 (.leaf 1161830292)
 (.leaf 1161834962)))))
 (.node 8 (.node 4 (.node 2 (.node 1 (.leaf 1161838698)
 (.leaf 1161841500))
 (.node 1 (.leaf 1161843368)
 (.leaf 1161844302)))
 (.node 2 (.node 1 (.leaf 1161844302)
 (.leaf 1161843368))
 (.node 1 (.leaf 1161841500)
 (.leaf 1161838698))))
 (.node 4 (.node 2 (.node 1 (.leaf 1161834962)
 (.leaf 1161830292))
 (.node 1 (.leaf 1161824690)
 (.leaf 1161818154)))
 (.node 2 (.node 1 (.leaf 1161810685)
 (.leaf 1161802285))
 (.node 1 (.leaf 1161792953)
 (.leaf 1161782689)))))))
 (.node 32 (.node 16 (.node 8 (.node 4 (.node 2 (.node 1 (.leaf 1161771495)
 (.leaf 1161759371))
 (.node 1 (.leaf 1161746318)
 (.leaf 1161732337)))
 (.node 2 (.node 1 (.leaf 1161717428)
 (.leaf 1161701592))
 (.node 1 (.leaf 1161684830)
 (.leaf 1161667143))))
 (.node 4 (.node 2 (.node 1 (.leaf 1161648532)
 (.leaf 1161628999))
 (.node 1 (.leaf 1161608544)
 (.leaf 1161587168)))
 (.node 2 (.node 1 (.leaf 1161564874)
 (.leaf 1161541661))
 (.node 1 (.leaf 1161517532)
 (.leaf 1161492488)))))
 (.node 8 (.node 4 (.node 2 (.node 1 (.leaf 1161466530)
 (.leaf 1161439660))
 (.node 1 (.leaf 1161411879)
 (.leaf 1161383190)))
 (.node 2 (.node 1 (.leaf 1161353593)
 (.leaf 1161323091))
 (.node 1 (.leaf 1161291686)
 (.leaf 1161259378))))
 (.node 4 (.node 2 (.node 1 (.leaf 1161226171)
 (.leaf 1161192066))
 (.node 1 (.leaf 1161157065)
 (.leaf 1161121170)))
 (.node 2 (.node 1 (.leaf 1161084384)
 (.leaf 1161046709))
 (.node 1 (.leaf 1161008147)
 (.leaf 1160968700))))))
 (.node 16 (.node 8 (.node 4 (.node 2 (.node 1 (.leaf 1160928370)
 (.leaf 1160887161))
 (.node 1 (.leaf 1160845075)
 (.leaf 1160802113)))
 (.node 2 (.node 1 (.leaf 1160758280)
 (.leaf 1160713577))
 (.node 1 (.leaf 1160668008)
 (.leaf 1160621575))))
 (.node 4 (.node 2 (.node 1 (.leaf 1160574280)
 (.leaf 1160526128))
 (.node 1 (.leaf 1160477121)
 (.leaf 1160427262)))
 (.node 2 (.node 1 (.leaf 1160376554)
 (.leaf 1160325001))
 (.node 1 (.leaf 1160272605)
 (.leaf 1160219370)))))
 (.node 8 (.node 4 (.node 2 (.node 1 (.leaf 1160165299)
 (.leaf 1160110397))
 (.node 1 (.leaf 1160054665)
 (.leaf 1159998108)))
 (.node 2 (.node 1 (.leaf 1159940730)
 (.leaf 1159882534))
 (.node 1 (.leaf 1159823524)
 (.leaf 1159763704))))
 (.node 4 (.node 2 (.node 1 (.leaf 1159703077)
 (.leaf 1159641648))
 (.node 1 (.leaf 1159579421)
 (.leaf 1159516399)))
 (.node 2 (.node 1 (.leaf 1159452587)
 (.leaf 1159387989))
 (.node 1 (.leaf 1159322609)
 (.leaf 1159256453)))))))))
 (.node 64 (.node 32 (.node 16 (.node 8 (.node 4 (.node 2 (.node 1 (.leaf 1159189523)
 (.leaf 1159121825))
 (.node 1 (.leaf 1159053362)
 (.leaf 1158984141)))
 (.node 2 (.node 1 (.leaf 1158914165)
 (.leaf 1158843439))
 (.node 1 (.leaf 1158771968)
 (.leaf 1158699757))))
 (.node 4 (.node 2 (.node 1 (.leaf 1158626810)
 (.leaf 1158553133))
 (.node 1 (.leaf 1158478731)
 (.leaf 1158403609)))
 (.node 2 (.node 1 (.leaf 1158327772)
 (.leaf 1158251225))
 (.node 1 (.leaf 1158173974)
 (.leaf 1158096025)))))
 (.node 8 (.node 4 (.node 2 (.node 1 (.leaf 1158017381)
 (.leaf 1157938050))
 (.node 1 (.leaf 1157858036)
 (.leaf 1157777346)))
 (.node 2 (.node 1 (.leaf 1157695985)
 (.leaf 1157600014))
 (.node 1 (.leaf 1157434642)
 (.leaf 1157267964))))
 (.node 4 (.node 2 (.node 1 (.leaf 1157099992)
 (.leaf 1156930736))
 (.node 1 (.leaf 1156760210)
 (.leaf 1156588426)))
 (.node 2 (.node 1 (.leaf 1156415396)
 (.leaf 1156241134))
 (.node 1 (.leaf 1156065651)
 (.leaf 1155888960))))))
 (.node 16 (.node 8 (.node 4 (.node 2 (.node 1 (.leaf 1155711075)
 (.leaf 1155532009))
 (.node 1 (.leaf 1155351774)
 (.leaf 1155170385)))
 (.node 2 (.node 1 (.leaf 0)
 (.leaf 0))
 (.node 1 (.leaf 0)
 (.leaf 0))))
 (.node 4 (.node 2 (.node 1 (.leaf 0)
 (.leaf 0))
 (.node 1 (.leaf 0)
 (.leaf 0)))
 (.node 2 (.node 1 (.leaf 0)
 (.leaf 0))
 (.node 1 (.leaf 0)
 (.leaf 0)))))
 (.node 8 (.node 4 (.node 2 (.node 1 (.leaf 0)
 (.leaf 0))
 (.node 1 (.leaf 0)
 (.leaf 0)))
 (.node 2 (.node 1 (.leaf 0)
 (.leaf 0))
 (.node 1 (.leaf 0)
 (.leaf 0))))
 (.node 4 (.node 2 (.node 1 (.leaf 0)
 (.leaf 0))
 (.node 1 (.leaf 0)
 (.leaf 0)))
 (.node 2 (.node 1 (.leaf 0)
 (.leaf 0))
 (.node 1 (.leaf 0)
 (.leaf 0)))))))
 (.node 32 (.node 16 (.node 8 (.node 4 (.node 2 (.node 1 (.leaf 0)
 (.leaf 0))
 (.node 1 (.leaf 0)
 (.leaf 0)))
 (.node 2 (.node 1 (.leaf 0)
 (.leaf 0))
 (.node 1 (.leaf 0)
 (.leaf 0))))
 (.node 4 (.node 2 (.node 1 (.leaf 0)
 (.leaf 0))
 (.node 1 (.leaf 0)
 (.leaf 0)))
 (.node 2 (.node 1 (.leaf 0)
 (.leaf 0))
 (.node 1 (.leaf 0)
 (.leaf 0)))))
 (.node 8 (.node 4 (.node 2 (.node 1 (.leaf 0)
 (.leaf 0))
 (.node 1 (.leaf 0)
 (.leaf 0)))
 (.node 2 (.node 1 (.leaf 0)
 (.leaf 0))
 (.node 1 (.leaf 0)
 (.leaf 0))))
 (.node 4 (.node 2 (.node 1 (.leaf 0)
 (.leaf 0))
 (.node 1 (.leaf 0)
 (.leaf 0)))
 (.node 2 (.node 1 (.leaf 0)
 (.leaf 0))
 (.node 1 (.leaf 0)
 (.leaf 0))))))
 (.node 4 (.node 2 (.node 1 (.leaf 0)
 (.leaf 0))
 (.node 1 (.leaf 0)
 (.leaf 0)))
 (.node 2 (.node 1 (.leaf 0)
 (.leaf 0))
 (.node 1 (.leaf 0)
 (.leaf 0)))))))

/-- For every row of the routing order the places of its values in `gammaData` (5 digits), `cfaData` (3), `cfsData` (3), `tawcData` (4),
`builtData` (4) and `factorData` (4), the maximal groundwater recharge in 1/100 mm (3), texture + 2 (2), land cover (2), arid (1) and the river length (10, bits of the
binary32 number); 16 rows to a leaf, the first row in the leading digits. -/
def paramData : DTree :=
 (.node 4096 (.node 2048 (.node 1024 (.node 512 (.node 256 (.node 128 (.node 64 (.node 32 (.node 16 (.node 8 (.node 4 (.node 2 (.node 1 (.leaf 161444360019800000000450221501113325568049354443600198000003164502215011133255680431344436001980000031645022150111332556804190444360019800000557450221501113325568041364443600198000003164502215011133255680412744436001980000055545022150111332556802646444360062300000834450221501113325568028494443600623000010834502215011133255680190544436006230000097830000150111332556800217444360062300000518300001501113325568011144443600623000008503000015011133255680076644436006230000077430000150111332556800671444360062300000714300001501113325568003814443600623000005893000015011133255680175344436006230000093630000150111332556803028444360062300001056300001501113325568)
 (.leaf 3788444360062300001118300001501113325568043024443600623000011713000015011133255680467044436001980000117130000150111332556802608444360062300000173450221501113762992022144443600623000006454502215011133532020062744436006230000036645022150111377552600339444360062300000644450221501115453654019744443600623000010174502215011139767770329744436001980000051145022150111332556803057444360019800000822450221501113325568022564443600198000009924502215011133255680106244436001980000080545022150111332556801971444360019800000724450221501113325568023274443600198000002664502215011133255680202844436001980000046945022150111332556802384444360019800000789450221501113325568))
 (.node 1 (.leaf 2345444360062300000822450221501113325568032794443600623000008594502215011133255680264744436006230000106545022150111332556800390444360062300000714450221501113325568005424443600623000007744502215011133255680025044436006230000061445022150111332556800354444360062300000680450221501113325568005884443600623000008314502215011133255680325244436006230000053645022150111332556803878444360019800000545450221501113325568036064443600198000005324502215011133255680385344436001980000030845022150111332556803329444360019800000293450221501113325568022634443600623000005114502215011133255680165144436006230000048845022150111332556801296444360062300000479300001501087446708)
 (.leaf 3457444360062300000526300001501113325568051564443600198000011713000015011133255680202244436001980000089830000150111332556802544444360019800000952300001501113325568021824443600198000008983000015011133255680191844436001980000086730000150111332556802185444360019800000898300001501113325568026844443600198000009783000015011133255680032244436001980000030245022150111503265301843444360062300000438450221501114374953016964443600623000003094502215011157184580105344436006230000024145022150111475135500476444360062300000366450221501114788987002584443600623000004704502215011145484880029844436006230000071445022150111459158200467444360062300000774450221501114799159)))
 (.node 2 (.node 1 (.leaf 471444360062300000354450221501115711675003684443600623000002174502215011154988290022644436006230000020245022150111421667600599444360062300000379450221501114852947002824443600623000004264502215011144022670015244436006230000029645022150111561709700177444360062300000296450221501115666397001394443600623000002874502215011140577570073944436006230000051645022150111448208600144444360062300000383450221501114722345006034443600623000003114502210010901583970016644436006230000029945022150109021584500319444360062300000573450221001089849549001654443600623000004274502215011149248750015444436006230000042745022150111451059800264444360062300000320450221501116366157)
 (.leaf 340444360062300000680450221501116621406000724443600623000005184502215011138540360041344436006230000071445022150111497154800896444360062300000867450221501115162219009054443600623000008674502215011143445820120944436006230000091645022150111451720803580444360062300001134450221501114394268039864443600198000011013000015011152402680432644436001980000089045022150111332556804374444360019800001171450221501113325568042534443600198000011534502215011133255680309544436001980000104545022150111332556801343444360062300000952450221501113325568030864443600198000005114502215011133255680222744436006230000050245022150111332556801263444360019800000406450221501113325568))
 (.node 1 (.leaf 1122444360062300000916450221501113325568027634443600623000005174502215011133255680236944436001980000048545022150111332556802155444360019800000475450221501113325568027714443600198000002834502215011133255680269844436006230000029245022150111332556803424444360062300000308450221501113325568040634443600198000000003000015011133255680379244436001980000010630000150111332556803515444360019800000100300001501088456648022904443600198000000923000015010884566480229044436006230000071430000150111360616802290444360062300000527300001501113606168022904443600623000004793000015011136061680229044436006230000083730000150111360616802290444360062300000789300001501088456648)
 (.leaf 2290444360062300000418300001501113482672016154443600623000006713000015011134826720228144436006230000078130000150111348267202381444360062300000469300001501113482672013904443600623000008983000015011133255680168644436006230000095230000150111332556801388444360062300000898300001501113325568012334443600623000008673000015011133255680146044436006230000089830000150111332556801958444360062300000978300001501113325568026584443600623000010303000015011133255680384644436006230000112830000150111332556804290444360062300001171300001501113325568042704443600623000011713000015011133255680435844436001980000132430000150111332556803227444360019800001152300001501113325568))))
 (.node 4 (.node 2 (.node 1 (.leaf 3155444360019800001025300001501113325568032454443600198000010253000015011133255680290844436006230000109245022150111453326502452444360062300000829450221501113762038005554443600623000005574502215011148668430089744436006230000041845022150111451048100241444360062300000205450221501090707527003494443600623000001984502215010909873080020044436006230000046045022150111464232100358444360062300000510450221501114729933000364443600623000001484502215011155806110000044436006230000000045022150109212245900410444360062300000168450221501090854827004104443600198000000000000315010906982130060344436001980000000000003150109080255800603444360019800000000000031001114980685)
 (.leaf 333444360019800000000000031501115942493003334443600198000000000000315011157755890033344436001980000000000003150109075773400319444360019800000000000031001115124116003194443600198000000000000310011155564740031944436006230000068045022150109120187200319444360062300000339450221501091123374003794443600623000003584502215011148262360037944436006230000036645022150111480804800573444360062300000831450221501091088401007884443600623000009364502215010909022710049244436006230000074145022150111555598001006444360062300000886450221501115046972014224443600623000009524502215011145489280502844436001980000117145022150111332556800751444360062300000831450221501113325568))
 (.node 1 (.leaf 1071444360062300000898450221501113325568017914443600623000010094502215011133255680076344436006230000057045022150111332556800611444360062300000540450221501113325568006504443600623000008054502215011133255680094844436006230000086745022150111332556801698444360062300000773450221501113325568015544443600623000007244502215011133255680113744436006230000089845022150111332556800659444360062300000805450221501113325568006264443600623000007744502215011133255680049844436006230000071445022150111332556800574444360062300000527450221501113325568009064443600195000005274502215011133255680418744436001920000031645022150111332556803914444360062300000557450221501113325568)
 (.leaf 3990444360062300000890450221501113325568038954443600623000011534502215011133255680246544436006230000104545022150111332556801897444360062300001025450221501113325568021194443600623000010304502215011133255680223944436006230000103745022150111332556802553444360062300000511450221501113325568015194443600623000007494502215011133255680080444436006230000039845022150111332556801525444360062300000992450221501113325568018894443600623000010254502215011133255680166644436006230000027045022150111332556801764444360019900000262450221501113325568022924443600200000002603000015011133255680229044436006230000074930000150108946546900994444360062300000805300001501113325568)))
 (.node 2 (.node 1 (.leaf 1504444360062300000898300001501113325568022914443600623000010093000015011133255680279144436006230000103730000150111332556803602444360062300001101300001501113325568038184443600623000011183000015011133255680234044436006230000100930000150111332556803284444360019800001152300001501113325568031904443600198000010253000015011133255680318544436001980000102530000150111332556801902444360019800000867300001501113325568019274443600198000008673000015011133255680207244436001980000100130000150111332556802731444360019800001137300001501113325568043914443600198000013843000015011133255680127144436006230000064345022150111403983200664444360062300000540450221501115330500)
 (.leaf 1005444360062300000643450221501114225487015134443600623000007734502215011143795180119544436006230000070045022150111418179301451444360062300000992450221001114569995003464443600623000004704502215010913791870009444436006230000042745022150109192296400241444360062300000401450221501091261335000074443600623000001464502215010920288600000744436006230000029945022150111511139500000444360062300000275450221501115532792000004443600623000000424502215010914526300001844436006230000016845022150111574080001192444360019800000000000031501115019033008694443600198000000000000315010914906830016344436001980000000000003150109113299300163444360062300000036450221501091568714))
 (.node 1 (.leaf 415444360062300000168450221501115350583003334443600623000003114502215010916945470062344436006230000080545022150111559543000243444360062300000614450221501115614414005114443600623000007414502215011141793710029244436006230000064445022150111544472300375444360062300000680450221501115134831011184443600623000008984502215011156422280064344436006230000080545022150111595820300384444360062300000680450221501114802443002714443600623000006144502215011144338940441144436001980000117145022150111332556802612444360062300001056450221501113325568025934443600623000010564502215011133255680115944436006230000089845022150111332556802458444360062300001045450221501113325568)
 (.leaf 1853444360062300001009450221501090473092017404443600623000009924502215010904730920174044436006230000101745022150109047309202823444360062300001025450221501090473092008934443600623000005994502215010904730920318944436006230000110145022150109047309203200444360019800000000300001501113623011016974443600623000004463000015011133255680216544436006230000100930000150111332556802079444360062300000789300001501113325568016154443600623000006173000015011134826720228144436006230000078930000150111348267202381444360062300000822300001501113482672021424443600623000006293000015011134826720121144436006230000055730000150109047309200630444360062300000436300001501113325568)))))
 (.node 8 (.node 4 (.node 2 (.node 1 (.leaf 943444360062300000468300001501113325568008254443600623000007413000015011133255680071944436006230000071430000150111332556802221444360062300000867300001501113482672034214443600623000010173000015011134826720261344436006230000102530000150111332556802659444360062300001025300001501113325568019674443600198000008673000015011133255680251044436001980000093630000150111332556801358444360062300000867300001501113325568019624443600623000009523000015011133255680417044436006230000153530000150111332556804371444360062300001171300001501113325568041104443600623000015283000015011133255680304344436006230000144330000150111332556803868444360062300001518300001501113325568)
 (.leaf 4466444360019800000940300001501113325568044204443600198000005073000015011133255680442944436001980000050730000150111332556804402444360019800000507300001501113325568045354443600198000001853000015011133255680431544436001980000006330000150111332556804295444360019800000062300001501113325568043724443600198000000633000010011133255680432044436001980000006230000150111332556804343444360019800000062300001501113325568007994443600731000003794502215011156513700080044436007330000037945022150111564283800802444360073500000379450221501115466513008074443600736000003794502215011153083760087444436007530000039045022150111447087800865444360075000000390450221501114547445))
 (.node 1 (.leaf 864444360074600000390450221501114543780008734443600744000003904502215011145416210165444436006230000100945022150111451222601916444360062300001025450221501114581993023074443600623000010454502215011139502530099944436006230000089845022150111453038800993444360062300000898450221501115791655030094443600623000011014502215011159592630242244436001980000122045022150111457161903065444360062300001101450221501114905082013864443600623000009784502210011141013330022044436006230000061445022150109217503600265444360062300000680450221501114709901003154443600623000007144502215011146898740009244436006230000042745022150111463077100140444360062300000460450221501115975971)
 (.leaf 15444360062300000168450221501091946923001244443600623000001024502215011153790810017944436006230000029645022150109201784800128444360062300000436450221501114550710002834443600623000008114502215011146252630000044436006230000034845022150111482519100163444360062300000614450221501092334046004154443600623000006804502215011150281310013244436006230000055845022150111597526300000444360062300000293450221501114770164001014443600623000004014502215011142569660009144436006230000051845022150111458825800070444360062300000470450221501115646974000514443600623000004324502215011155011020002244436006230000040145022150111468720600194444360062300000573450221501115226992)))
 (.node 2 (.node 1 (.leaf 198444360062300000573450221501114650894000774443600623000004704502215011149938420371444436006230000114045022150111332556803987444360062300000890450221501113325568018924443600623000007814502215011133255680095844436006230000039845022150111332556802136444360062300000273450221501113325568008034443600623000005854502215011133255680222244436006230000043345022150111348267201775444360062300000256450221501113482672017754443600623000002414502215011136408890163444436006230000024145022150111364088901464444360062300000220450221501090999241007974443600623000003984502215011133255680282344436006230000058545022150109099924103189444360062300000100300001501113640889)
 (.leaf 3200444360019800000000300001501113640889022904443600198000000003000015011136408890095744436006230000007430000150111348267202937444360062300000290300001501090999241026524443600623000005263000015010909992410254944436006230000056730000150111348267201164444360062300000608300001501090999241002464443600623000003953000015011133255680121444436006230000086730000150111332556803064444360019800000789300001501113325568021874443600198000006433000015011133255680169944436006230000067130000150111332556802829444360062300001025300001501090999241034624443600623000005023000015011134826720346244436001980000028830000150111364088904105444360019800000109300001501113325568))
 (.node 1 (.leaf 4035444360062300000000300001501113325568039084443600623000000003000015011133255680398944436006230000006330000150111332556803964444360062300000000300001501113325568040444443600623000000633000015011133255680441044436006230000051930000150111332556804336444360019800000000300001001113325568043214443600198000000623000015011133255680433144436001980000006230000150111332556804361444360019800000062300001501113325568043644443600198000000623000015011133255680093544436007430000039045022150111491578000923444360073900000585450221501115090501009344443600737000005854502215011151206990082444436007270000058545022150111522502400711444360072900000570450221501115304927)
 (.leaf 718444360073200000570450221501115714225007254443600731000003794502215011156513700079844436007450000037945022150111507801201438444360076600000936450221501113963561013614443600759000006714502215011141009240088744436007440000039045022150111454162100789444360072800000585450221501114423316008374443600728000005854502215011144233160390744436000400000147045022100111332556803905444360004000001470450221001113325568039034443600040000014704502210011133255680376244436000400000110345022150111350456703134444360004000000276450221501114350783032204443600040000004944502215011144346600372844436000400000052245022150111453486503149444360004000000817450221501114569075))))
 (.node 4 (.node 2 (.node 1 (.leaf 3206444360004000000494450221501114823892030684443600623000014704502215011148520660198944436006230000141745022150111469762201004444360062300001245450221501114446047011434443600623000012834502215011145336580029644436006230000111545022150109296677401050444360062300001217450221501092374884028864443600623000014794502215011144056390110644436006230000126145022150111522652800218444360062300000956450221501115837832004734443600623000011154502215011157769960104244436006230000126145022150111480211201027444360062300001261450221501115003764007564443600623000012174502215011140986570048744436006230000111545022150111477037500262444360062300000470450221501092472280)
 (.leaf 475444360062300000773450221501092727884006654443600623000009364502215011140784230027444436006230000081145022150111451933100326444360062300001038450221501114221521003714443600623000010764502215011153621960053144436001980000056845022150111559751100207444360062300000614450221501115026716003874443600623000007144502215011148616530057544436006230000080545022150111519573800215444360062300000614450221501114795221001214443600623000005734502215011158108580008944436006230000028845022150111514138400415444360062300000068450221501092521857004614443600623000000724502215011151907240046144436006230000000045022100111526301000255444360062300000000450221501115435688))
 (.node 1 (.leaf 461444360019800000000000031501114959405008444443600198000000000000315010927716290046144436006230000017245022150111580413300026444360062300000437450221501092724968000004443600623000003034502215011157382230025644436006230000058945022150111523546200642444360062300000774450221501114671660032014443600623000010924502215011149696540350144436006230000111845022150111332556802480444360062300001037450221501113325568013144443600623000009164502215011133255680189244436006230000046945022150109150173903040444360062300000090450221501091501739033794443600623000004654502215010915017390337944436001980000000000003150109150173903379444360019800000000000031501113679719)
 (.leaf 3379444360019800000000000031501113679719033794443600198000000000000315011136797190337944436001980000000000003150111367971903379444360019800000000000031501113679719033794443600198000000000000315011136797190187744436001980000000000003150111348267201877444360019800000000000031501113482672018774443600198000000000000315011136597960187744436001980000000000003150111365979602823444360019800000000000031501113482672031894443600198000000003000015011136597960320044436001980000000030000150111365979602290444360019800000000300001501113659796027894443600198000000003000015011136597960293744436001980000000030000150111348267202937444360019800000000300001501113659796)))
 (.node 2 (.node 1 (.leaf 2937444360019800000000300001501113659796029374443600198000000003000015011136597960293744436001980000000030000150111365979602549444360062300000103300001501091501739025494443600623000008313000015010915017390146544436006230000088630000150111332556801115444360062300000831300001501113325568013754443600623000008863000015011133255680140844436006230000061730000150111332556801364444360062300000228300001501113325568020564443600623000004693000015011133255680100044436006230000088630000150109150173900507444360062300000741300001501113325568002524443600623000004703000015011133255680102544436006230000037930000150111332556800849444360062300000527300001501113325568)
 (.leaf 621444360062300000330300001501113325568020134443600623000004653000015011133255680446344436001980000031630000150111332556804390444360019800000090300001501113325568043864443600198000000763000015011133255680437244436001980000006330000150111332556804384444360019800000063300001501113325568044974443600198000001023000015011133255680449244436001980000010230000150111332556804562444360019800000123300001501113325568021464443600783000010545251910011144478670138144436007800000097752519100111455830001435444360077300000977525191001114574059020604443600744000010094502210011141750460194744436007490000100945022100111430340302030444360073400001009450221001114489574))
 (.node 1 (.leaf 560444360072400000741450221001114354286006374443600726000007414502210011145136710058744436007480000085245022100111525848801911444360076100001232450221001115727560023584443600766000014274502210011156949000216244436007610000125045022100111589403002265444360075800001204450221001115598610022414443600754000011664502210011152530950012344436007410000026045022150111500926800118444360074000000260450221501114780048007674443600743000003904502215011149157800091844436007570000086745022150111447047000812444360073900000585450221501115090501008364443600737000005854502215011151206990082244436007270000058545022150111522502400703444360072900000570450221501115304927)
 (.leaf 714444360073200000570450221501115714225006764443600731000003794502215011156513700074144436007330000037945022150111564283800670444360073500000379450221501115466513006544443600736000003794502215011153083760064044436007380000037945022150111521912500635444360074500000379450221501115078012012644443600766000009364502215011139635610128244436007590000067145022150111410092401216444360075500000427450221501114193401007214443600753000003904502215011144708780070544436007500000039045022150111454744500726444360074600000390450221501114543780007364443600744000003904502215011145416210087244436007280000058545022150111442331603143444360081300001101450221501113325568))))))
 (.node 16 (.node 8 (.node 4 (.node 2 (.node 1 (.leaf 3138444360081300001101450221501113325568031364443600813000011014502215011133255680314144436000400000027645022150111386256602990444360004000000276450221501113862566029344443600040000002764502215011141542860291944436000400000027645022150111412496402900444360004000000276450221501114350783030024443600040000004944502215011144346600365744436000400000052245022150111453486503093444360004000000817450221501114569075037594443600040000008484502215011149612250373544436000430000052245022150111499817602139444360004500000418450221501115111016039914443600198000012444502210011142915160271244436001980000118545022150111429151603331444360062300001244450221001114367804)
 (.leaf 3361444360019800001470450221501114852066033454443600198000014704502215011147748440331344436001980000147045022150111467244100593444360062300001180450221501114694028002444443600623000007734502215011145995910013444436006230000070745022150111522653100296444360062300000105450221501093141522005864443600623000003184502215010935766370150744436006230000132145022150109308469701781444360062300001379450221501114368743019044443600623000013964502215011150676530092444436006230000123045022150111446386300915444360062300001230450221501115465668011914443600623000012834502215011155471900151644436006230000133945022150111416403101652444360062300001354450221501113956892))
 (.node 1 (.leaf 2347444360062300001435450221501114628587021134443600623000014174502215011147687340262244436006230000145345022150111494147803071444360062300001490450221501116221419013994443600623000013214502215011158400920054944436006230000080545022150111683652200468444360062300000398450221501093439731002974443600623000000644502215010932853690085844436001980000000000003150109370114800858444360019800000000000031501093073687004154443600198000000000000315011151056420041544436001980000000000003150111471203500253444360019800000000000031501115551798002534443600198000000000000315011155852600025544436001980000000000003100109329440400014444360062300000323450221001114209026)
 (.leaf 444360062300000336450221501115365384000594443600623000004704502215011162605500000044436006230000036745022150111426190904143444360062300001171450221501113325568041264443600623000011714502215011133255680380744436006230000114045022150111332556802738444360062300000511450221501113325568018004443600623000008174502215010920035250337944436006230000106545022150111367971903379444360019800000000300001501092003525031894443600198000000003000015011136797190320044436001980000000030000150111367971902290444360019800000000300001501113482672022904443600198000000003000015011136797190229044436001980000000030000150111348267203077444360019800000000300001501113482672)))
 (.node 2 (.node 1 (.leaf 3077444360019800000000300001501113482672027894443600198000000003000015011134826720310244436001980000000030000150111370064903102444360019800000000300001501113482672031024443600198000000003000015011134826720265244436001980000000030000150109200352502549444360019800000000300001501113679719025494443600198000000003000015011136797190254944436001980000000030000150109200352501350444360062300001083300001501092003525007474443600623000007143000015011133255680040144436006230000042730000150111332556800847444360062300000741300001501113325568025124443600623000004533000015011133255680380844436006230000033530000150111332556804414444360019800000000300001501113325568)
 (.leaf 2561444360019800000256300001501113325568044694443600198000000953000015011133255680187944436001330000035830000150111500193502045444360007300000358300001501115121266023194443600073000002093000015011150030660211444436000770000025930000150111497432003531444360009500000127300001501113959015015494443600099000000593000015011141789080150644436001370000005930000150111436788301551444360017500000182300001501114473021022304443600262000002133000015011145733050238044436005140000024130000150111462067202041444360064000000084300001501114648251018804443600762000000843000015011144570810253944436007620000000030000150111433332802020444360076200000000300001501114273440))
 (.node 1 (.leaf 2112444360076200000089300001501114307586021224443600756000000893000015011142975310165644436007510000008230000150111400868901539444360076300000220300001501114325667018454443600763000002353000015011143256670173644436007630000023530000150111432566701722444360076300000235300001501114325667018674443600763000002353000015011143256670186644436007630000023530000150111432566701424444360078000000977525191001114558300014554443600773000009775251910011145740590195044436007440000100945022100111417504601948444360074900001009450221001114303403019214443600734000010094502210011144895740056744436007240000074145022100111435428600636444360072600000741450221001114513671)
 (.leaf 581444360074800000852450221001115258488019314443600761000012324502210011157275600223844436007540000116645022100111525309502179444360075200001142450221501115258079019224443600747000008514502215011151553200017044436007340000040145022150111499900800904444360074300000390450221501114915780009174443600757000008674502215011144704700082844436007390000058545022150111509050100938444360073700000585450221501115120699008424443600727000005854502215011152250240081744436007290000057045022150111530492700820444360073200000570450221501115714225007534443600731000003794502215011156513700068844436007330000037945022150111564283800699444360073500000379450221501115466513))))
 (.node 4 (.node 2 (.node 1 (.leaf 698444360073600000379450221501115308376006874443600738000003794502215011152191250379844436000400000147045022100111332556803519444360004000001103450221501113504567030444443600040000002764502215011138625660286844436000400000027645022150111386256602783444360004000000276450221501113862566028984443600040000002764502215011141542860290444436000400000027645022150111412496402917444360004000000276450221501114350783030264443600040000004944502215011144346600363844436000400000052245022150111466932603741444360004000000848450221501114734991019014443600040000006434502215011152432480235344436000460000070045022150111517853502796444360019800001396450221501114656223)
 (.leaf 3966444360019800001244450221001114291516018764443600623000011854502215011142152290234944436006230000143545022150111400345003362444360019800001470450221501114980559031984443600198000014704502215011145336960104744436001980000118045022150111469402801044444360019800001180450221501115192474001824443600623000001024502215010936255400024744436006230000010245022150111448286400247444360062300000110450221001093389730002234443600198000000000000315011153006750150744436001980000000000003150111493880301507444360062300000575450221501115837807011004443600623000011494502215010940456350120444436006230000130045022150111433193900683444360062300001230450221501115470413))
 (.node 1 (.leaf 456444360062300001199450221501114980869014124443600623000013794502215010935681650052744436006230000083145022150109413431900076444360062300000558450221501114705963001554443600623000000474502215010938917800006644436006230000015345022150111592463500066444360062300000033450221501093367830002534443600623000001484502215010936058000000644436006230000022145022150111473752300079444360062300000275450221501114751421003354443600623000006804502215011151836450004244436006230000047045022100111484637000097444360062300000401450221001116234895000134443600623000004014502210011152167790004844436006230000043245022150111502198100254444360019800000432450221501114998010)
 (.leaf 3379444360019800000000000031501113700649033794443600198000000000000315011137006490337944436001980000000000003150111370064903379444360019800000000300001501113700649033794443600198000000003000015011137006490318944436001980000000030000150111370064903200444360019800000000300001501113700649022904443600198000000003000015011134826720229044436001980000000030000150109250455802290444360019800000000300001501113482672030774443600198000000003000015011134826720310244436001980000000030000150111372257603102444360019800000000300001501113722576031024443600198000000003000015011137225760310244436001980000000030000150111372257603102444360019800000000300001501113482672)))
 (.node 2 (.node 1 (.leaf 3102444360019800000000300001501113482672031024443600198000000003000015011134826720310244436001980000000030000150111348267203102444360019800000000300001501113482672031024443600215000000003000015011134826720310244436002320000000030000150111348267202549444360024700000000300001501113482672025494443600283000000003000015011134826720254944436003840000000030000150111348267203102444360048600000000300001501092504558015264443600623000006173000015011133255680205844436006230000072430000150111332556800634444360035800000502300001501113325568010564443600289000003703000015011133255680306644436002520000035930000150111332556800502444360048600000348300001501114432923)
 (.leaf 732444360048600000288300001501114165103009834443600486000004603000015011162166500067344436004860000027530000150111440679201627444360048600000805300001001114344381004414443600486000004013000015011146349550033244436004860000026030000150111505515501313444360048600000714300001001114428378013094443600486000004363000015011156089270100844436004860000020230000150111532229001240444360048600000123300001501115248590017164443600215000003583000015011153970110177944436001830000019430000150111476327502335444360007200000209300001501115003066021104443600077000002593000015011149743200269644436000880000012030000150111475254302406444360008600000306300001501114319935))
 (.node 1 (.leaf 3566444360009500000127300001501113959015015484443600100000000593000015011141789080204844436001700000007430000150111455685802343444360025700000235300001501114683296024404443600400000002413000015011144797620177144436007660000008430000150111469895602471444360074200000000300001501114766039023134443600742000000003000015011139062490190944436007660000000030000150111432769401965444360074200000000300001501114586374017254443600742000000823000015011140086890158944436007630000022030000150111432566701899444360076300000235300001501114325667018784443600763000002353000015011143256670093244436007290000057045022150111530492700925444360073200000570450221501115714225)
 (.leaf 839444360073100000379450221501115651370024684443600812000006584502210011133255680272644436008140000113545022100111332556803221444360081600001297450221001113325568038134443600040000014704502210011133255680372544436000400000147045022100111332556803721444360004000001470450221001113325568035124443600040000011034502215011135045670306244436000400000027645022150111386256603173444360004000000276450221501113862566030514443600040000002764502215011138625660301044436000400000027645022150111415428602960444360004000000276450221501114124964034964443600040000002904502215011145135230356444436000400000052245022150111462157601284444360004000000643450221501114944768)))))
 (.node 8 (.node 4 (.node 2 (.node 1 (.leaf 2209444360004000000952450221501114860130037714443600040000008484502215011154726100301544436000470000049445022150111536220601679444360005000000082450221501115389493011564443600050000000004502215011146112620081844436000440000000045022150111456455103415444360062300001501450221501113859192035084443600623000015244502215011141938150353844436006230000152445022150111401912804069444360062300001556450221501114458288035384443600623000015244502215011144068630322844436006230000150145022150111545701703333444360062300001510450221501114924720042144443600198000015474502215011139100700097344436001980000114945022150111598433400939444360019800001149450221501115409702)
 (.leaf 1798444360062300001379450221501114771685008764443600623000012304502215011149678280049344436006230000114945022150111473869000750444360062300001217450221501116012156002234443600623000000904502215010939043540069344436006230000051345022150109437550100389444360062300001115450221501094913572009504443600623000012454502215011158773220104044436006230000126145022150111488494700866444360062300001230450221501115865887011724443600623000012614502215011159477010114244436006230000126145022150111438788100422444360062300001076450221501114829696003054443600623000004374502215010941868620049644436006230000068045022150109419355100425444360062300000288450221501094399395))
 (.node 1 (.leaf 60444360062300000178450221501094198355000404443600623000004144502215011154324270021644436006230000058945022150111387557100518444360062300000741450221501113577081009854443600623000008864502215011159548630044344436006230000071445022100111567482400519444360062300000741450221501115693458010264443600623000012304502215011150601870041444436001980000049645022150111468347002774444360019800000764450221501113325568031514443600623000007074502215011133255680320544436001980000000000003150111372257603379444360019800000000000031501113722576033794443600198000000000000315011137225760337944436001980000000030000150111372257603379444360019800000000300001501113722576)
 (.leaf 3379444360019800000000300001501113722576031894443600198000000003000015011137225760320044436001980000000030000150111348267203200444360019800000000300001501113482672022904443600198000000003000015010930048020229044436001980000000030000150111348267203077444360019800000000300001501113482672024334443600486000000963000015010930048020147444436006230000040030000150111332556803338444360062300000325300001501113325568021594443600623000005943000015011133255680064544436003320000035630000150111332556801104444360025900000265300001501113325568005344443600493000002213000015011143290840092844436004860000017230000150111422524600823444360048600000299300001501114015890)))
 (.node 2 (.node 1 (.leaf 272444360048600000260300001501114561585008544443600486000001723000015011143967790054844436004860000014830000150111437627400709444360048600000275300001501115635752007094443600400000001113000015010940598270063144436003660000022930000150109408425900631444360010000000146300001501093808760012744443600100000001533000015010938836930159144436001000000004230000150109410418202648444360008800000113300001501114752543018564443600091000002583000015011148337540163744436000900000024830000150111443957202009444360008600000264300001501114319935037184443600100000000003000015011137391220212944436001000000019830000150111489616002670444360010000000599300001501114918868)
 (.leaf 3104444360010000000250300001501114705814031354443600100000000893000015011142967870277644436001000000008230000150111415862402432444360016400000079300001501114581644018934443600257000000723000015011137064410176644436004000000007230000150111571391801629444360076600000220300001501114642644024734443600812000006584502210011133255680273744436008140000113545022100111332556803230444360081600001297450221001113325568038894443600040000014704502210011133255680375044436000400000110345022150111350456703197444360004000000276450221501113862566031704443600040000002764502215011138625660218944436006230000027645022150111386256602584444360062300000290450221501114446006))
 (.node 1 (.leaf 2848444360062300000292450221501114066320009784443600623000002284502215011150282440124944436006230000070045022150111477016402799444360062300001101450221501115035894018084443600623000010454502215011147743280092644436006230000023545022150111614623602420444360005500000000000031501114704683003034443600623000000004502215011148561900094944436006230000000045022150111427291201793444360000000000805450221501115443561022844443600000000008984502215011157263840174944436002320000093645022150111479544801326444360062300000916450221501114945662042474443600385000015564502215011146960060405444436006230000155645022150111469382903992444360062300001551450221501114686825)
 (.leaf 3335444360062300001510450221501114413688038274443600623000015424502215011143602590376044436006230000153545022150111413318802878444360062300001470450221501114658184022864443600623000013964502215010949301890201744436006230000137945022150109596770001979444360062300001396450221001115357629030984443600623000014904502215011149387520333044436006230000151045022150111435068203755444360062300001535450221501114713464023974443600623000014354502215011160546610286744436006230000147045022150111489091603240444360062300001501450221501114245111039114443600623000015474502215011139100700162644436001980000123045022150111458983600987444360062300001230450221501115189013))))
 (.node 4 (.node 2 (.node 1 (.leaf 466444360062300000110450221501095077227006104443600623000001144502215011158426270051544436006230000029645022150111517811300400444360062300000274450221501095208941005064443600623000011154502215011146961540049144436006230000111545022150111461855400408444360062300001076450221501116040209007374443600623000011994502215011158462470144644436006230000132145022150111483487600551444360062300001149450221501115507519005764443600623000008314502215011142253340086044436006230000086745022150111516100900540444360062300000774450221501115074418007714443600623000008504502215011149083170042544436001980000000000003150109484488700000444360062300000053450221501094975716)
 (.leaf 444360062300000004450221501115456457003524443600623000000094502215011149166320000044436006230000000845022150109426931000016444360062300000085450221501115347921005054443600623000004364502215011142679100393544436006230000114645022150111332556803556444360062300001118450221501113325568028834443600623000010654502215011133255680213044436006230000062945022150111332556801981444360062300000622450221501113325568019264443600623000006224502215011133255680298244436006230000058345022150111374548802723444360062300000557450221501113745488023834443600623000005434502215011137454880201444436006230000013945022150111374548801471444360019800000029450221501113745488))
 (.node 1 (.leaf 2453444360019800000000000031501113745488031924443600198000000000000315011137454880319244436001980000000000003150111374548803205444360019800000000000031501113482672032054443600198000000000000315011134826720337944436001980000000000003150111374548803379444360019800000000300001501113745488033794443600198000000003000015011137454880337944436001980000000030000150111374548803379444360019800000000300001501113745488031894443600198000000003000015011137454880320044436001980000000030000150111348267202290444360019800000000300001501093504217022904443600198000000003000015011134826720307744436002320000000030000150111348267203102444360048600000000300001501113482672)
 (.leaf 3102444360048600000000300001501093504217031024443600486000000003000015011134826720310244436004860000000030000150109350421703102444360048600000000300001501113482672031024443600486000000003000015011134826720310244436004860000000030000150111348267202433444360048600000037300001501113745488015054443600486000000843000015010935042170318444436004930000038430000150111332556802643444360049300000531300001501113325568019324443600493000004003000015011133255680365344436004930000047830000150111332556802363444360049300000594300001501113325568023684443600493000008263000015011133255680117844436004930000017230000150111422524601206444360049300000320300001501114120569)))
 (.node 2 (.node 1 (.leaf 1095444360049300000320300001501114267574008264443600493000002993000015011143247510108944436004200000032030000150111450622400886444360048600000172300001501114362016010874443600334000000563000015010943243150089244436000720000030330000150109438079700868444360007200000348300001501114972548009224443600100000000333000015010950645880186344436001000000011430000150109479637402665444360010000000000300001501114308990022064443600097000001213000015011147773150258744436000910000032630000150111483375401972444360009000000277300001501114439572037804443600084000004423000015011145264600265044436000720000063430000150111504178103663444360007200000435300001501114223132)
 (.leaf 1819444360076300000235300001501114325667036214443600040000002904502215011145135230388044436000400000084845022150111464030002804444360062300001065450221501114696472029634443600623000010744502210011147054940321544436006230000110145022100111480378401058444360062300000418450221501114355728030784443600055000000000000315011147802730028944436006230000000045022150111472066202076444360006400000000000031501114531682020664443600623000010174502215011142165960101744436000200000052745022150109413092801772444360000000000379450221501114518987011474443600176000001894502215011155667890114744436004860000032045022150111549248401370444360022600000311450221501115366175))
 (.node 1 (.leaf 591444360010000000311450221501114520173006894443600215000004704502215010948000690050844436006230000051045022150111587563904207444360062300001556450221501113404534042054443600623000015564502215011134492010408244436006230000155645022150111425509903962444360062300001551450221501115313612039154443600623000015474502215011145214830392044436006230000154745022150111445842903445444360062300001518450221501114556473038404443600623000015424502215011149843750364344436006230000151845022150111377973201286444360062300001283450221501114650044022684443600623000014274502215011142528800277944436006230000146545022150111486059603107444360062300001490450221501114784601)
 (.leaf 2269444360062300001427450221501114700317027734443600623000014654502215011157612480215444436006230000141745022150111437871002524444360062300001443450221501114672284033034443600623000015244502215010950924830378244436006230000153545022150111396013703559444360062300001524450221501114891834034594443600623000015184502215011155569040312244436006230000149045022150111477092003449444360062300001518450221501114687021032374443600623000015014502215011154057540356744436006230000152445022150111491970903581444360062300001524450221501114007001005944443600623000011494502210011152723480118944436006230000128345022150111489459801196444360062300001024450221501114630510)))))))
 (.node 32 (.node 16 (.node 8 (.node 4 (.node 2 (.node 1 (.leaf 879444360062300000955450221501115131024009814443600623000012614502215011141525330071744436006230000119945022150111524302100746444360062300001199450221501115823885005334443600623000011154502215011143314580107544436006230000124545022150111491211500848444360062300001217450221501114645348003824443600623000007414502215011143529800017644436006230000058945022150111497813200186444360062300000898450221501095289909007584443600623000008984502215011153422850058044436006230000080545022150111553548900541444360062300000084450221501095571482004584443600623000000004502215010955356990035244436001980000000000003150109513350700017444360062300000010450221001115300102)
 (.leaf 90444360062300000098450221501114239582007544443600623000002404502215011162062150406644436006230000089045022150111332556801607444360062300000300450221501113325568006164443600623000001304502215011134826720044844436006230000012645022150111348267201011444360062300000130450221501094002766005574443600623000002544502215011134826720055744436006230000014545022150111379422301303444360062300000030450221501113482672007704443600198000000294502215011134826720163344436001980000000000003150111348267201633444360019800000000000031501113794223016454443600198000000000000310011134826720147144436001980000000000003150111348267203624444360019800000000000031001113482672))
 (.node 1 (.leaf 3624444360019800000000000031501113482672036244443600198000000000000315011137942230362444436001980000000000003150111348267203624444360019800000000000031501113794223036244443600198000000000000315011137942230304044436001980000000000003150111348267203040444360019800000000000031501113482672030404443600198000000000000315011134826720304044436001980000000000003150111348267203379444360019800000000000031501113769375033794443600198000000003000015011134826720337944436001980000000030000150111376937503379444360019800000000300001501113769375033794443600198000000003000015011137693750337944436001980000000030000150111376937503379444360019800000000300001501113769375)
 (.leaf 3189444360019800000000300001501113769375032004443600198000000003000015010940027660229044436004860000000030000150111376937503102444360048600000000300001501113482672031024443600486000000003000015011134826720310244436004860000000030000150109400276603102444360048600000000300001501094002766031024443600486000000003000015011134826720310244436004860000000030000150111348267203102444360048600000000300001501113482672031024443600486000000003000015011134826720310244436004860000000030000150111348267202334444360048600000000300001501113794223023344443600486000000213000015011137942230233444436004860000002530000150111348267202334444360048600000025300001501113482672)))
 (.node 2 (.node 1 (.leaf 2334444360062300000043300001501113482672023344443600623000001653000015011134826720370944436006230000033230000150111332556801836444360049300000394300001501113325568018384443600493000005433000010011133255680183344436004930000054330000150111332556801960444360049300000557300001501113325568012674443600493000003203000015011142675740123644436004930000032030000150111429987601239444360043200000320300001501114396036012704443600295000003203000015011145982400182244436001570000034830000150111483446401706444360007200000296300001501114830169028304443600072000009823000010011148823830275444436001000000123030000100111517789101131444360010000000790300001001114299355)
 (.leaf 922444360010000000436300001501095665701015704443600100000002873000015011151119080304244436000980000013630000150111469318803939444360008400000442300001501114526460027654443600077000006343000015011149201300178244436001000000051330000150111479847801778444360010000000513300001501114473274037244443600078000008563000015011143482040233944436000940000042430000150111452466602560444360011200000213300001501114532347032094443600283000010834502215010955431930279544436000480000101745022150111502774802153444360007200000700450221501114084324017904443600104000008984502215011148587940164144436002210000091645022150111486524101530444360017600000886450221501114494261))
 (.node 1 (.leaf 1647444360024700000916450221501114990220014394443600341000008984502215011153337430132144436006230000067145022150111531820901111444360062300000886450221501114783426038324443600623000011344502215011144934190391644436006230000114045022150111470464103213444360062300001083450221501114666915034254443600623000011014502215011133255680425744436006230000155945022150111332556804228444360062300001559450221501113658622039104443600623000015354502215011154827780380944436006230000154245022150111402710303504444360062300001510450221501095605153036144443600623000015104502215010957620820401244436006230000155145022150111436588304025444360062300001551450221501114660667)
 (.leaf 3904444360062300001535450221501114138162039194443600623000015354502215011147441880354144436006230000151045022150111479051402628444360062300001435450221501113717416040734443600623000015474502215011145830810408944436006230000155645022150111487030303254444360062300001501450221501114837197021664443600623000014174502215011153088340345844436006230000151845022150111395718504160444360062300001559450221501113325568037514443600623000015354502215011145127930358644436006230000152445022150111450789402758444360062300001465450221501114608063025234443600623000014434502215011141524120166144436006230000135445022150111453805502105444360062300001417450221501114736722))))
 (.node 4 (.node 2 (.node 1 (.leaf 3940444360062300001547450221501114362871040604443600623000015474502210011136164770207544436001980000128345022150111443526303783444360062300001524450221501114537154027244443600623000014654502215011146822940417844436006230000155945022150111509871002921444360062300001470450221501115012825018964443600623000013794502215011143126190229644436006230000142745022150111582414402188444360062300001417450221501114838181005164443600623000008504502215011146385000005044436006230000061445022150111505676000341444360062300000714450221501115066973009014443600623000008674502215011152232860121944436006230000091645022150111507796300580444360062300000680450221501095992948)
 (.leaf 369444360062300000379450221501115144669004234443600623000000644502215011151988800068244436006230000000045022150111436567600458444360062300000000450221501096243067026184443600198000000000000315011146829870068644436001980000000000003150111431731401701444360019800000000000031001114226557002144443600198000000884502215011146174010429244436001980000047045022150111332556800183444360062300000275450221501113325568002044443600623000002884502215011133255680019344436006230000015845022150111332556800355444360062300000056450221501113325568005244443600623000001234502210011133255680362444436001980000000030000150109450041203379444360019800000000300001501113794223))
 (.node 1 (.leaf 2278444360019800000000300001501113482672033794443600198000000003000015011134826720232044436001980000000030000150111348267202450444360019800000000300001501113482672033794443600198000000003000015011134826720337944436001980000000030000150111379422303379444360019800000000300001501113482672033794443600198000000003000015011137942230337944436001980000000030000150111379422303379444360019800000000300001501113482672033794443600198000000003000015011134826720337944436001980000000030000150111379422303379444360019800000000300001501113794223028234443600198000000003000015011134826720282344436001980000000030000150111348267202992444360019800000000300001501113482672)
 (.leaf 2814444360019800000000300001501113482672029594443600198000000003000015011134826720297944436001980000000030000150111348267203087444360019800000000300001501113482672031894443600198000000003000015011137942230320044436004860000000030000150111348267202290444360048600000000300001501113482672030774443600486000000003000015011134826720310244436004860000000030000150111379422303102444360048600000000300001501113482672031024443600486000000003000015011137942230310244436004860000000030000150111379422303102444360048600000000300001501113482672031024443600486000000003000015011137942230233444436004860000000030000150111382002102334444360048600000000300001501113482672)))
 (.node 2 (.node 1 (.leaf 2334444360048600000000300001501113482672023344443600486000000003000015011134826720233444436004860000004830000150109450041202491444360062300000622300001001113325568012344443600623000005433000010011133255680153144436006230000054330000150111332556802138444360049300000567300001001113325568032614443600493000009803000010011133255680371344436004930000047830000150111332556802427444360049300000594300001501113325568022874443600115000004953000015011148490060212844436000750000085730000100111496348202853444360008200001198300001001114896985013764443600072000009013000010011151412210116344436001000000038630000150109572012601597444360007200000274300001501115615694)
 (.leaf 1363444360008900000436300001501115059328018914443600096000005133000015011146358760182544436000960000051330000150111463587601734444360009600000513300001501114473274034534443600078000008563000015011143482040217444436001200000022430000150111444008102299444360016600000209300001501114587308024114443600233000002203000015011145478480230144436002770000022030000150111452151903176444360081300001101450221501113325568018114443600623000009784502210011146633110286944436006230000106545022150111466331102389444360062300001030450221501114359910026044443600623000014354502210011157543970172744436006230000061545022100111553799801354444360062300000567450221501114317612))
 (.node 1 (.leaf 4036444360062300001551450221501114743138040424443600623000015514502215011159339340392244436006230000154745022150111429370704158444360062300001559450221501114978679037334443600623000015354502215011142573990376944436006230000153545022150111471289803994444360062300001551450221501114758189041414443600623000015594502215011143474590416544436006230000155945022150111413700903945444360062300001547450221501116084184035704443600623000015244502215011154177280378744436006230000153545022150111376615603790444360062300001535450221501114845056038744443600623000015424502215011144243940433844436003210000155145022150111441201204240444360019800001535450221501114138162)
 (.leaf 4233444360019800001535450221501114442169041834443600623000015564502215011144441580391844436006230000153545022150111386730801769444360062300001009450221501114925477019374443600623000010174502215011143385000231544436006230000142745022150111453503901996444360019800001221450221501114449213018464443600623000013394502215011139693280384344436006230000152845022150111412720504229444360062300001556450221501113848938036954443600623000015184502215011143114210289744436006230000147045022150111459963103866444360062300001542450221501114706175011804443600623000008864502215010966004470126544436006230000091645022150111454230400805444360062300000850450221501115436702)))))
 (.node 8 (.node 4 (.node 2 (.node 1 (.leaf 638444360062300000805450221501114770024007434443600623000008674502215010971176750091244436006230000089845022150109636184200000444360062300000033450221501114324289000024443600623000000094502215011145535740021244436006230000011045022150111588000500270444360062300000019450221501115071577027284443600198000000000000315011160363030062244436001980000028845022150111332556800171444360019800000090450221501113325568009564443600623000008054502215011133255680007344436006230000022145022150111332556800117444360019800000014450221501113325568001354443600198000000714502215011133255680014544436001980000007145022150111332556800047444360062300000205450221501113325568)
 (.leaf 81444360062300000242450221501113325568000004443600623000002054502210011133255680004144436006230000037645022150111332556800158444360062300000614450221001113325568036244443600623000001514502210011138200210362444436001980000000000003150111382002103624444360019800000000000031501113820021036244443600198000000000000315011138200210362444436001980000000000003150111382002103624444360019800000000000031501113820021032724443600198000000003000015011134826720362444436001980000000030000150111382002102680444360019800000000300001501113482672023784443600198000000003000015011134826720218044436001980000000030000150111348267202409444360019800000000300001501113482672))
 (.node 1 (.leaf 2409444360019800000000300001501113846756027554443600198000000003000015011134826720275544436001980000000030000150111348267202725444360019800000000300001501113482672027254443600198000000003000015011134826720258144436001980000000030000150111348267202581444360019800000000300001501113846756025814443600198000000003000015011138467560278144436001980000000030000150111348267202781444360019800000000300001501113482672027814443600198000000003000015011138467560278144436001980000000030000150111384675602781444360019800000000300001501113846756027814443600198000000003000015011138467560278144436001980000000030000150111384675603189444360019800000000300001501113482672)
 (.leaf 3189444360019800000000300001501113482672031894443600198000000003000015011134826720320044436004860000000030000150111382002103200444360048600000000300001501113820021030774443600486000000003000015011138200210310244436004860000000030000150111382002103102444360048600000000300001501113820021031024443600486000000003000015011138200210233444436004860000000030000150111348267201478444360062300000044300001501094997115019914443600493000008653000010011133255680152744436004930000068430000150111332556801140444360049300000793300001001113325568028854443600493000013793000010011133255680246044436001030000083030000100111487851001229444360007900000492300001001115062652)))
 (.node 2 (.node 1 (.leaf 1079444360010000000148300001501114984083013284443600072000002523000015011144934600208544436000720000031830000150111456967501939444360010000000310300001501114818423018134443600100000002963000015011149201900409444436001000000143530000150111389161601824444360008000000811300001501114753655018604443600096000005133000015011146358760190044436000960000051330000150111463587601919444360009600000513300001501114635876018304443600096000005133000015011144732740375244436000780000085630000150111434820402600444360018500000249300001501114576940011304443600722000008674502215011142164370318244436008130000110145022150111332556803551444360062300001501450221001114840170)
 (.leaf 3661444360062300001510450221001115317403038304443600040000006894502215011140357180310044436006230000068945022150111501861603346444360062300001490450221001113670157024084443600623000014274502210011163473580184444436006230000055745022100109648187601840444360062300000567450221001115247079012814443600623000005674502210011160833270396744436006230000154745022150111411988503957444360062300001547450221501114265490038024443600623000015244502215010966568330297644436006230000147945022150111639744803793444360062300001535450221501115410132027904443600623000014654502215011145745600359044436006230000152445022150111464364603266444360062300001501450221501114619536))
 (.node 1 (.leaf 3371444360062300001510450221501114874750038314443600623000015284502215011142122690419744436006230000155645022150111388094603591444360017700001393450221501114712453034724443600623000015184502215011142403060327544436006230000150145022150111492660402957444360062300001479450221001114372682044774443600158000015514502215011139816180415044436006230000155145022150111445678003074444360002400001017450221501114177427027134443600024000009784502215011138128940311344436000240000103045022150111421928202752444360002400001009450221501114321998037114443600024000010834502215011159631770377744436000240000109245022150111620110203577444360004000001074450221501115757572)
 (.leaf 1773444360062300001009450221501114142084009864443600623000008864502215011151970130101544436006230000088645022150111435396701298444360062300000936450221501114282718014074443600623000009524502215011141670130164644436006230000099245022150111521242001524444360062300000978450221501115081840011484443600623000008764302315011154677100212144436006230000062625032150111391934601803444360062300000579250321501114467588020064443600623000005892503215011156950950231144436006230000064625032150111429928600883444360062300000667370261501114097888008214443600623000005854502215011146393410110744436006230000089845022150111379950601113444360062300000898450221501114466419))))
 (.node 4 (.node 2 (.node 1 (.leaf 720444360062300000867450221501115656506005444443600623000005574502215011151112140140244436006230000083145022150111536560701061444360062300000540450221501115303224003804443600623000005404502215011158206090038044436006230000016845022150111516829300312444360062300000053450221501097297373004574443600623000003394502215010969255470016044436006230000041445022150109681111300129444360062300000589450221501114876795001294443600623000006144502215011144866290023944436006230000061445022150111571065400093444360062300000274450221501115378624000934443600623000000134502215011157283790088144436001980000000000003150109755011000364444360062300000020450221501114880519)
 (.leaf 363444360062300000020450221501115855475013954443600623000004114502210011149921830024044436001980000026045022150111332556801585444360019800000398450221501113325568006574443600623000003484502215011133255680028644436006230000058945022150111332556800449444360062300000320450221501113325568003954443600623000001144502215011133255680033844436006230000001945022100109549283701283444360062300000023450221001113482672023314443600198000000004502210011134826720106344436001980000000000003100111384675603624444360019800000000000031501113482672036244443600198000000000000315011138467560330844436001980000000000003150109549283702533444360019800000000300001501113482672))
 (.node 1 (.leaf 2607444360019800000000300001501113482672024094443600198000000003000015011138744150278144436001980000000030000150111348267202781444360019800000000300001501095492837031864443600198000000003000015011134826720318644436001980000000030000150111348267203189444360019800000000300001501113482672031894443600198000000003000015011134826720318844436001980000000030000150111348267203188444360029300000000300001501113482672032004443600486000000003000015011138467560307744436004860000000030000150111384675603102444360048600000000300001501113482672031024443600486000000003000015011138467560310244436004860000000030000150111384675603102444360048600000000300001501113846756)
 (.leaf 3102444360048600000000300001501113482672023344443600486000000003000015011134826720230944436004860000000030000150109549283703630444360062300000699300001001113325568032104443600623000006583000010011133255680262144436006230000062230000150111332556803397444360062300001465300001001113325568023704443600493000008953000010011133255680222844436004930000098030000100111332556802879444360049300001379300001001113325568047254443600493000015633000010011133255680144744436000760000021230000150111468240601342444360007400000252300001501114627186020154443600083000003183000015011147694300214444436000930000054730000150111454341102463444360023300000220300001501114547848)))
 (.node 2 (.node 1 (.leaf 2644444360001700000936450221501113963561012504443600017000001824502215011142382880168144436000170000007245022150111437835601684444360001700000072450221501115303306017774443600017000002094502215011148537070209644436000170000086745022150111452546002517444360001700000916450221501114528669011704443600778000005574502210011144478840298844436006230000067945022150111399486303103444360062300000689450221501113433342025074443600623000006454502215011136960530146344436006230000056745022150111332556801625444360062300000481450221001098124433009004443600623000004814502210011153120960090044436006230000051645022100111500564101197444360062300000543450221001115335785)
 (.leaf 1325444360062300000516450221001115705315006584443600664000004814502210010971278190134444436008700000062245022100111398879201477444360087000001025450221001115729778020994443600870000010654502210011148892940237344436008700000108345022100111574094602839444360087000001510450221001115284713031774443600870000015244502210011153951700113944436007040000118030001150111332556802346444360070400001354300011501116950495040964443600623000015564502215011136993810412244436006230000155645022150111454316103983444360062300001547450221501114601073034024443600623000015104502215011147625940330044436006230000108345022150109724056301990444360062300001025450221501114828316))
 (.node 1 (.leaf 1814444360062300001009450221501115162515025854443600213000013514502215011154156990269944436006230000145345022150111472245103310444360016700001304450221501115199698026934443600623000010654502215011146577830101844436006230000088645022150111440284101953444360051700001009450221501115527906023794443600505000010304502210011150058160304544436004000000146545022100111636498803393444360021500001470450221001115623184029894443600024000010254502215011159742130332844436000240000143545022100111483067403516444360002400001453450221001115324715039374443600623000015354502215011156297120320344436006230000149045022100109746311302910444360062300001443450221001097591396)
 (.leaf 3955444360006400001501450221501113925218032504443600116000010564502210011152354620259644436000330000099245022150111581214102435444360002400000952450221501114687340031204443600024000010304502215011141837950187444436000240000089845022150111556018002467444360002400000978450221501115460732026064443600024000009924502215011145068240250644436000240000102545022150109864054503298444360002400001074450221501097968552033944443600041000010564502215011152507360424944436001400000114045022150111415607000486444360062300000741450221501114224852011274443600623000008984502215011141891450104344436006230000088645022150111480262901351444360062300000936450221501114072576))))))
 (.node 16 (.node 8 (.node 4 (.node 2 (.node 1 (.leaf 944444360062300000886450221501114603957010694443600623000004722503215011150526420197744436006230000058925032150109762923701262444360062300000553250321501097567407015444443600623000004442903015011144662440098444436006230000016633028150111391545700909444360062300000783410241501114066198011344443600623000008984502215011136132060046044436006230000074145022150111468734001479444360062300000724450221501114354431008304443600623000008504502215011172775200056244436006230000077445022150111487322800769444360062300000570450221501115673927000654443600623000002424502215011141545980003244436006230000032245022150111495112200411444360019700000321450221501114940145)
 (.leaf 191444360062300000105450221501115202247000694443600623000000124502215011146115260021044436006230000001545022150111455356300147444360062300000102450221501115627127001374443600623000002604502215011135774490125144436001980000052745022150111332556800520444360062300000644450221501113325568007134443600623000004514502210011133255680048144436006230000011845022150111332556801152444360019800000023450221001113325568012894443600198000000000000310011133255680150144436001980000000000003100111332556803204444360019800000000000031001113325568027924443600198000000000000310011133255680309244436001980000000000003150111332556801085444360019800000019300001501113325568))
 (.node 1 (.leaf 1858444360019800000029300001501113325568024094443600198000000003000015011139029840272544436001980000000030000150109598754302581444360019800000000300001501095987543031864443600198000000003000015011134826720318644436004860000000030000150109598754303186444360048600000000300001501113482672031864443600486000000003000015011139029840318844436004860000000030000150111348267203188444360048600000000300001501113482672031154443600486000000003000015011134826720320044436004860000000030000150111387441503077444360048600000000300001501113874415031024443600486000000003000015011138744150310244436004860000000030000150111387441503102444360048600000000300001501113874415)
 (.leaf 3102444360048600000000300001501113482672023094443600486000000003000015010959875430230944436006230000026030000150111348267202309444360048600000043300001501113482672015674443600623000002953000015010959875430348644436006230000032530000150111332556802149444360062300000594300001501113325568012054443600623000004813000015011133255680354344436004930000125730000100111332556802927444360049300001379300001001113325568047034443600493000015633000010011133255680255444436002180000022030000150111459422402274444360001700000867450221501114470470019704443600017000005704502215011151810940159944436000170000035845022150111553799801741444360001700000205450221501115624537)))
 (.node 2 (.node 1 (.leaf 1377444360001700000189450221501116810869014734443600017000001944502215011150980790156344436000170000019845022150111558311301586444360001700000070450221501114055916014324443600017000000684502215011138851530208944436000170000008145022150111432661302832444360001700000092450221501114640202021934443600017000002284502215011143260920240344436000170000064345022150111527398902012444360001700000585450221501115116318021414443600017000008674502215011146121070254244436000170000091645022150111507764802653444360001700000936450221501114677392011354443600870000005944502215011133255680153544436008580000059430000100111734325200814444360087000000557450221001114382402)
 (.leaf 1655444360084500000629450221001114396762014064443600853000006224502210011150175110090244436007900000054345022100111392927601622444360068200000608450221001113812505020844443600623000006224502215011133255680132344436006230000055745022100111416003301116444360087000000594450221001113325568009114443600870000005674502210011151807420103144436008700000059445022100111494513201384444360087000000629450221001115115161013154443600870000013964502210011155216580154744436008700000141745022100111596272700658444360084800000468450221001115085166005954443600842000004514502210010979197630112544436006270000077445022100111535079501073444360041300000714450221001097231718))
 (.node 1 (.leaf 903444360058500000614450221001097645951009034443600273000008054502210011153956840171144436006270000089845022100109847932102740444360087000001490450221001097057575026834443600870000015014502210011143114050286144436004400000104545022100111551968601440444360062300000936450221001114731909020974443600623000010174502210011159955700397344436006230000154245022100111375654303594444360062300001518450221001114086309039064443600623000015354502215011133255680434744436002420000147145022150111445327103003444360062300001083450221501115891018028734443600623000010744502215011164354150136944436006230000093645022150111521611703563444360019800001194450221501115229855)
 (.leaf 1857444360062300001354450221501115971107020694443600623000013964502215011148917390209844436006230000139645022150111503075703219444360062300001490450221501114367160020524443600024000008984502215011174912870174544436000240000086745022150111471473401467444360002400000831450221501114985071014824443600024000008314502215011150347720154344436000240000091645022150109829594702371444360002400000952450221501098571062033514443600024000010454502215011141893700393644436003660000152845022150111394272602870444360015700000952450221001098425204029024443600055000010254502210011145236970348844436000240000105645022150111451692102973444360002400001030450221501115737757))))
 (.node 4 (.node 2 (.node 1 (.leaf 2909444360002400001025450221501097620644037014443600024000010744502215011133255680286244436000240000101745022150111424398902903444360002400001025450221501116665213022324443600024000009364502215011142198800244444436000240000095245022150111490787002492444360002400000992450221501115489986031104443600024000010304502215011148543620310644436000240000103045022150111496805002235444360002400001074450221501097657856029454443600024000010564502215010978324690403844436000240000111845022150111397128503862444360002400001092450221501115194906021994443600024000009164502215011149359390265644436006230000060425032150109784846101575444360062300000589250321501097788653)
 (.leaf 1194444360062300000490250321501114241538015744443600623000005382503215011152287330132744436006230000050925032150111647174801865444360062300000579250321501115061053008344443600623000003312503215011158382900083144436006230000033125032150111476880200260444360062300000049250321501114383768002094443600623000000022503215011155855160089944436001980000000000003150111464630900570444360019800000000000031501114367022009914443600198000000000000315011153704220020644436006230000025245022150111536539402603444360019800000000000031001113325568010214443600198000000000000310011133255680212044436001980000003230000150111332556801920444360019800000029300001501113325568))
 (.node 1 (.leaf 1723444360019800000000300001501113325568018324443600198000000003000015011133255680227244436002100000003530000150111332556802953444360019800000000300001501113932449027254443600198000000003000015010964811930278144436001980000000030000150111393244902661444360048600000000300001501113932449031864443600486000000003000015010964811930318644436004860000000030000150109648119303186444360048600000000300001501113482672031864443600486000000003000015010964811930318644436004860000000030000150111393244903131444360048600000000300001501113482672032004443600486000000003000015011139029840320044436004860000000030000150111390298403102444360048600000000300001501113902984)
 (.leaf 3102444360048600000000300001501113902984031024443600486000000003000015011139029840310244436004860000000030000150111348267203102444360048600000000300001501113902984023094443600486000000003000015011134826720230944436004860000000030000150111390298402309444360048600000032300001501113482672015674443600623000001213000015010964811930032044436006230000041430000150109648119301105444360062300000558300001501096481193010544443600017000004374502215011154793470149744436000170000006845022150111454944901714444360001700000072450221501114092390016394443600017000002054502215011157944380188144436000170000007245022150111577032701881444360001700000070450221501115974703)))
 (.node 2 (.node 1 (.leaf 1837444360001700000074450221501115449932018424443600017000000744502215011157685060196444436000170000007945022150111587523801481444360001700000194450221501115648775018484443600017000003794502215011152491330164444436000170000007045022150111457067501885444360001700000209450221501114434837021174443600017000003984502215011160019890212344436000170000039845022150111371802402298444360001700000000450221501115400067013474443600870000006154502210011142960140141644436008700000062245022100111498519100889444360087000000567450221001115338376016174443600825000006224502210011158091470121244436008700000061545022100109795894201273444360087000000594450221001098142295)
 (.leaf 2111444360028300000543450220701115737468020834443600322000005434502207011144876920115444436005580000052945022100111452321701559444360063400000500450220701098331484015594443600100000005574502207010990708880104644436001760000055745022100109844545201046444360006000000481450221001097992069015594443600322000003954502210010979152140104644436001760000034545022100111532912501559444360003300000518450221001098135157015594443600176000006144502210010982847860028044436003570000064445022100109803896901019444360087000001339450221001116260195014844443600870000014174502210011162261890142944436008700000135445022100111452968102054444360087000001435450221001114595547))
 (.node 1 (.leaf 1794444360085800001045450221001114100858010144443600799000009164502210010989225360153244436007990000093645022100111626246802145444360077900000952450221001116051958012794443600777000009784502210011166734310255744436007190000107445022100111511272403923444360069800001559450221501097451489038064443600709000015594502215010975543310340844436007990000152845022100111370371503474444360084600001556450221001114531183034374443600842000015514502210011151401380240544436008700000149045022100111516214902297444360087000001465450221001115066081020364443600870000014354502210011146633710257444436008700000147045022100111332556803326444360038300001546625151001114572959)
 (.leaf 2175444360002400000898450221501115940664018104443600024000008674502215011145957260189844436000240000088645022150111488041601555444360002400000850450221501115270964015584443600024000008504502215011150294460117144436000240000074145022150111742447301055444360002400000714450221501114707727010664443600024000007144502215011143255540099744436000240000071445022150111444940202448444360002400000978450221501115634401023824443600024000009524502215011146110280220544436000240000093645022150111495335103090444360002400001030450221501115074090040294443600024000011184502210010983839980367844436000240000107445022150111476980303258444360002400001092450221501114317659)))))
 (.node 8 (.node 4 (.node 2 (.node 1 (.leaf 2946444360002400001037450221501115222312036544443600024000010744502210011149135020291544436000240000102545022100111659750002666444360002400001009450221501114764557028004443600024000010744502215011147778060338844436000240000105645022150109864183104120444360002400001118450221001114801962040514443600024000011014502215011143278540411944436000240000111845022150111562402504304444360002400001140450221501114757844035954443600024000010654502215011136182520363244436000240000107445022150111400952903441444360002400001056450221001114761071028444443600024000010304502215011146795700328044436000240000104545022150111457496002127444360002400000936450221501115180673)
 (.leaf 4248444360002400001140450221501114217938042604443600024000011344502215011136178400326344436000240000103745022150109854668903007444360002400001065450221501098817126023484443600623000006642503215010986264950265644436006230000068625032150109816946302502444360062300000686250321501098748684025024443600623000006462503215010987450950161844436006230000065525032150109871660301618444360062300000142250321501098423612013684443600623000000262503215011159653440178044436001980000000000003150111514765701780444360019800000000000031501114458471013204443600198000000000000315011147103740080944436001980000000000003150111478597201065444360019800000000000031501115079164))
 (.node 1 (.leaf 1141444360019800000000000031501115060493002514443600623000000012503215010985921640125244436006230000015225032150111459388002248444360022300000035300001501113325568015234443600341000000003000015011133255680266144436004860000000030000150111396279603186444360048600000000300001501096973751031864443600486000000003000015010969737510318644436004860000000030000150111348267203186444360048600000000300001501113482672031864443600486000000003000015010969737510327744436004860000000030000150109697375103200444360048600000000300001501113932449032004443600486000000003000015011139324490310244436004860000000030000150111393244903102444360048600000000300001501113932449)
 (.leaf 3102444360048600000000300001501113482672031024443600486000000003000015011134826720310244436004860000000030000150111348267203102444360048600000000300001501113482672031024443600486000000003000015011139324490310244436004860000000030000150111348267203102444360048600000000300001501113932449023964443600486000000003000015011134826720239644436004860000000030000150111396279602309444360048600000000300001501113932449023094443600486000000003000015011134826720230944436004860000000030000150111348267202309444360048600000000300001501113482672023094443600486000000003000015011134826720134144436004860000000030000150111348267202309444360048600000000300001501113482672)))
 (.node 2 (.node 1 (.leaf 564444360062300000023300001501096973751010594443600623000007413000015011133255680135644436006230000118030000100111332556803573444360062300001465300001001113325568046764443600623000015633000010011133255680476044436004930000156330000100111332556804758444360049300001563300001001113325568047574443600493000015633000010011133255680386144436000170000142745022100111569490003440444360001700001017450221001116093158016584443600017000005274502215011145894420127244436000170000047045022150111421654600816444360001700000168450221501098736630010334443600017000000644502215011154766030141344436000170000000045022150111486841301797444360001700000074450221501115715081)
 (.leaf 1469444360001700000348450221501099215620014994443600017000003484502215011154093960113244436000170000061445022150111549017903169444360087000001510450221001113325568027804443600870000014794502215011133255680264244436008700000069945022100111598292202500444360087000000689450221001115548811015684443600870000006294502210011162977600107844436008700000059445022100111598705801635444360087000000543450220701099083501014624443600870000005294502207011159873940118844436008700000051645022100109858243601188444360050500000516450220701115973214017524443600000000004814502207011150355200175244436006860000056745022070111445632401559444360070400000529450220701098641069))
 (.node 1 (.leaf 1559444360054900000516450220701099000966015594443600100000008054502210010986589830155944436001980000074145022070111478274401559444360002600000898450220701114400858015594443600144000008504502210010991037560155944436001760000077445022070109841979901559444360019800000589450221001098677084024724443600021000005894502210011152861030200344436000000000055845022100111532954901007444360006000000558450221001098739405008354443600549000007144502207010991914240077944436008700000095245022100111640731200882444360087000000916450221001116164214016624443600870000013964502210011143486400193344436008700000103745022100111332556801036444360087000000978450221001098831909)
 (.leaf 1051444360087000000952450221001116281542038474443600870000015594502215011143827200385544436008700000156345022150111440354903892444360087000001563450221501113941057038764443600870000015634502215011134866890347544436008700000154745022100111389743903435444360087000001551450221001114701278034794443600870000015514502210011148911950253044436008700000149045022100111664053002899444360087000001518450221001115096630027064443600821000014654502210011149420270268944436008700000149045022100111413982102338444360087000001470450221001117256799023304443600870000014704502210011152300820213444436008700000147045022100111556718402280444360087000001479450221001116227845))))
 (.node 4 (.node 2 (.node 1 (.leaf 2351444360087000001470450221001116039935020914443600870000014534502210011157325080222344436008700000146545022100111571760202441444360087000001470450221001114938213028074443600870000014904502210011160491790173044436000390000085045022150111586472001720444360003800000850450221501115992640020384443600024000008864502215011142931800246244436000240000095245022100111532344803288444360002400001037450221001098983371034734443600024000011014502210010993337820324444436000240000103745022100111472528503548444360002400001065450221001115077880031504443600024000010304502210011146326430273344436000400000100945022150111570216003719444360002400001074450221501114640482)
 (.leaf 3686444360003600001065450221501114129618037654443600040000010744502215011144833920354444436000400000105645022150111515314901676444360002400000831450221501116140929037224443600024000010834502215011146962320371544436000240000107445022150111485998002556444360002400000978450221501114293597027214443600024000009924502215011145925940330744436000240000103745022150111520672302707444360002400000992450221501115379624012374443600623000004902503215011147853830206844436006230000058925032150111532383501584444360062300000553250321501114891055010384443600623000004632503215011152031550148344436006230000053825032150111529386802337444360062300000626250321501114470952))
 (.node 1 (.leaf 1419444360062300000538250321501114676031012214443600623000005092503215011148100950137844436006230000052425032150111543647101683444360062300000407250321501114872450015114443600623000003992503215011158591780151444436006230000040725032150111489115301028444360062300000349250321501114864521007944443600623000002142503215011148120150067244436006230000021425032150111583619001176444360062300000369250321501114972175012564443600623000004902503215011148777780175744436006230000056325032150111560243700857444360062300000022250321501114479403020014443600198000000000000315011149754990097544436006230000007825032150111473167602687444360062300000307250321501115187865)
 (.leaf 4297444360062300000456250321001113999194022894443600294000000353000015011133255680223644436003420000003530000150111332556801498444360042200000000300001501113325568016064443600478000000383000015011133255680318644436004860000000030000150111399401103186444360048600000000300001501097465178031864443600486000000003000015011134826720318644436004860000000030000150111399401103186444360048600000000300001501097465178031374443600486000000003000015011134826720318344436004860000000030000150111348267203178444360048600000000300001501113482672032004443600486000000003000015011139627960320044436004860000000030000150111396279603102444360048600000000300001501113962796)))
 (.node 2 (.node 1 (.leaf 3102444360048600000000300001501113482672023964443600486000000003000015010974651780239644436004860000000030000150111348267202396444360048600000000300001501113482672023964443600486000000003000015011134826720239644436004860000000030000150111348267201601444360048600000000300001501113482672016014443600486000000003000015011134826720160144436004860000005830000150111348267201601444360048600000054300001501113482672016014443600486000000003000015011134826720134144436004860000003230000150109746517801133444360048600000032300001501097465178011334443600623000000823000015011134826720065244436006230000018230000150109746517800447444360062300000558300001501113325568)
 (.leaf 764444360062300000644300001001113325568012874443600623000011493000010011133255680160444436004930000118030000100111332556803763444360049300001465300001001113325568047704443600493000015633000010011133255680477844436004930000156330000100111332556802401444360009300000547300001501114543411031464443600017000007494502210011157602200085944436000170000000045022150109929942901669444360001700000059450221501099026778014134443600017000003114502215010991971640136744436000170000068045022150111539661203294444360001700001009450221001116985098022334443600870000006584502210011133255680252244436008120000065845022100111332556801398444360087000000615450221001113459484))
 (.node 1 (.leaf 1382444360087000000615450221001114722664012664443600870000006084502210011139042230114544436008700000059445022100111367629402183444360087000000594450220701115289688020194443600870000005674502207010993500970248544436008700000055745022070111578713301987444360087000000557450220701116105598016354443600842000008864502207010991574330155944436005490000052945022070110008616401559444360061300000529450220701099005842015594443600585000005164502207011155877170155944436004130000086745022070109950064301559444360087000000850450221001098960647024004443600157000014174502207010993053280240044436001760000137945022070111593147002400444360022600001417450220701115700796)
 (.leaf 2393444360087000001354450220701115659300027614443600870000014174502207011152992380209344436008700000144345022100111582013001704444360087000001030450221001115365992010124443600870000009784502210011151672410079044436008700000093645022100111590418702954444360087000001510450221001115612250037304443600870000015514502210011134955970398444436008700000156345022150111334431103985444360087000001563450221501114105937040304443600870000015634502215011146286590271844436008200000147045022100111615364802407444360087000001470450221001116274294016054443600870000014704502210011163507100263244436008700000147045022070111586291403060444360087000001470450220701115781045))))))))
 (.node 64 (.node 32 (.node 16 (.node 8 (.node 4 (.node 2 (.node 1 (.leaf 3616444360087000001490450220701115911604023184443600870000014654502210011143256310291244436008700000150145022100111552910704056444360038200001579625151001114282706038644443600623000015856251510011146259690346444436006230000156762515100111441482102000444360062300001494625151501114308150024544443600623000015216251515011144428780256344436006230000152662515150111429989801397444360062300001399625151501114503192018874443600623000014846251515011146490880234244436006230000146252519150111494522002325444360062300001417450221501115077505021514443600057000009164502215011152471010273944436000260000099245022150111509648201834444360002600000867450221001115279450)
 (.leaf 1694444360002400000850450221001115695127027294443600024000009924502210011140402160221344436000240000091645022100111435291002594444360002400000978450221001114032046039294443600040000011014502210011149308870198044436006230000101745022150111628582902201444360040000001009450221501114223187018054443600026000009415751715011154787410220044436000260000100357517150111527547102194444360002600001003575171501114322232021184443600026000010035751715011151231230198544436001430000050925032150111486841402147444360013000000524250321501114985226025374443600129000005632503215011148784640248844436001270000055325032150111493419302605444360012600000563250321501114729952))
 (.node 1 (.leaf 1688444360012400000463250321501114841724017084443600128000004632503215011146389590145244436002380000032425032150111484621800620444360023900000333600161501114859625021724443600374000000353000015011133255680182344436004360000016130000150111332556802095444360049300000216300001501113325568027814443600486000000003000015010979554380266144436004860000000030000150111402607902661444360048600000000300001501114026079026614443600486000000003000015011140260790318644436004860000000030000150109795543803186444360048600000000300001501113482672032004443600486000000003000015011139940110320044436004860000000030000150111399401103102444360048600000000300001501113994011)
 (.leaf 3102444360048600000000300001501113994011031024443600486000000003000015011134826720310244436004860000000030000150111399401103102444360048600000000300001501113994011023964443600486000000003000015010979554380160144436004860000005130000150109795543801341444360062300000190300001501114026079004054443600623000004883000015011134826720037844436006230000047030000100111332556800781444360062300000644300001001113325568004344443600623000005183000010011133255680166844436006230000121730000100111332556801486444360049300001149300001001113325568015954443600493000011803000010011133255680179544436000810000045830000150111453867202558444360008700000560300001501114549976)))
 (.node 2 (.node 1 (.leaf 1801444360001700000741450221001114354286024564443600017000008864502210011146730560064644436000170000024245022150109956353600841444360001700000116450221501099363592010984443600017000004014502215010993837160362844436000170000103045022100111359608402044444360087000001427450221001113325568025714443600870000014654502210011148406510217344436008680000083945022070111519247102032444360087000000649450221001113450923009894443600870000005674502210011135347070164944436008700000063945022100111616161803076444360087000000649450220701115715240024854443600322000009364502207010998518370236644436001000000088645022070111607081502366444360032200000867450220701099356679)
 (.leaf 1635444360041300000831450220701115703373023664443600176000008674502207010998367820155944436000210000074145022100109945246501559444360017600000644450221001099397693015594443600060000006144502210010995923620155944436008700000145345022100111505052001559444360087000001501450220701115020823015594443600870000013544502207010998810810155944436008700000124545022070110026016602067444360087000001261450220701099634737020674443600870000014274502207010996767840352744436009130000147945022070111522840602247444360087000001453450221001116009384013114443600870000013544502210011157873670102344436008700000130045022100111589310902388444360087000001465450221001116316106))
 (.node 1 (.leaf 1045444360087000001283450221001113498172026764443600870000014794502210011145829080301744436008700000151045022100111496068003385444360087000001528450221001113832256040504443600818000015564502210011149175740358844436006230000157962515100111393944401678444360062300001526625151001099466520005354443600623000015406251515011148958640053544436006230000154062515150111561942701423444360062300001473625151501114994931016484443600623000013996251515011000492710205944436006230000101745022100111538372602667444360034100001016475211001115000050026674443600026000010374502210011156683360307544436000260000107445022100109990228602714444360002600001009450221001116428486)
 (.leaf 3334444360014400001045450221501115387063032334443600198000010454502215011144144340330444436001980000106545022150111465891903306444360019800001065450221501114781160032564443600198000010654502215011152872100316444436001980000105645022150111481704903757444360019800001110450221501114952590035584443600623000011284502215011147043650342244436006230000112845022150111401309702633444360062300001065450221501114894238027014443600623000010654502215011155144700265144436006230000106545022150111414434101786444360062300001025450221001115758614018064443600623000010094502210011163147050125944436006230000091645022150111552015001729444360062300000992450221501114491566))))
 (.node 4 (.node 2 (.node 1 (.leaf 2436444360062300000732600161501114412198022404443600026000010235751715010995018330217044436000260000100357517150111577285202057444360002600000986575171501115928645015604443600026000009045751715011146160910144344436000260000089157517150111569397301587444360002600000891575171501115741613010644443600026000008165751715011149155440201844436000260000096757517150111430751401760444360002600000922575171501114820294025414443600026000010395751715011146498060163644436000260000090457517150111434192801020444360002600000779575171501114394553008754443600026000007505751710011147226640027844436002730000062160016150111497618000556444360062300000860600161501114628948)
 (.leaf 791444360062300000911600161501114811895016084443600623000010616001610011149639840051744436006230000038260016150111467595000095444360062300000197600161501114312302001484443600623000001226001615011144225170031044436006230000013260016150111574047101445444360062300001051600161001114067946025434443600493000003933000010011133255680208144436004930000061730000100111332556803186444360048600000000300001501098444491031864443600486000000003000015011134826720318644436004860000000030000150109844449103186444360048600000000300001501113482672031864443600486000000003000015011134826720327144436004860000000030000150111348267203248444360048600000000300001501113482672))
 (.node 1 (.leaf 3200444360048600000000300001501114026079032004443600486000000003000015011140260790310244436004860000000030000150111402607903102444360048600000000300001501114026079031024443600486000000003000015011140260790239644436004860000000030000150111405898502396444360048600000000300001501098444491023964443600623000004373000015010984444910160144436006230000024230000150109844449100417444360062300000401300001501113325568004804443600623000004323000010010984444910057844436006230000038330000100111332556801002444360049300000606300001001113325568006694443600493000007173000010011133255680344344436000170000100945022100111417504601562444360001700000714450221001114431759)
 (.leaf 783444360001700000367450221501099971485007244443600017000003364502215011159416650084144436000170000043245022150110006238003756444360001700001037450221001114744291026644443600899000010924502210011141957250230344436008700000105645022100111437711501392444360087000000992450221001114615767026254443600870000010094502207011149726960263144436008700000100945022070111624948402993444360068600001017450220701114831279022494443600870000009524502207011152989420248744436008700000099245022070111653489902244444360087000000952450220701116026467030814443600870000010374502207011149155050258344436008700000108345022070111509216301908444360017600000867450220701099862577)))
 (.node 2 (.node 1 (.leaf 2366444360017600000886450220701100309253023664443600742000008314502207010998696360236644436008700000091645022070109978396401559444360087000000867450221001115409916015594443600686000008054502207010998586580155944436009040000137945022070111572311901559444360093200001379450220701115602427015594443600870000013794502207010997955430155944436008910000135445022070109993727102923444360087000001427450220701116390888031164443600870000014434502207011160988290346744436008700000153545022100111565406203572444360087000001479450220701114817912036554443600870000014904502207011151382170299444436008700000143545022070111577852402540444360087000001379450220701115322530)
 (.leaf 2797444360087000001417450220701114388469018204443600870000014274502210011149352080187144436008700000142745022100111478964203740444360002600001435450220701114985726038914443600477000014794502207011153837680329544436008700000146545022070111524355202788444360087000001417450220701115363645018284443600870000014354502210011159463470195944436008700000143545022100111622174102747444360087000001501450221001114406913035094443600870000015424502210011147393480268244436008700000149045022100111420774703593444360087000001551450221001114203208018474443600823000013794502210011138880480094044436008700000126145022100111433811803038444360087000001510450221001114462181))
 (.node 1 (.leaf 3363444360087000001535450221001114492604019244443600870000014654502210011156874620216144436008700000141745022070111631692001389444360087000001435450221001116057756010744443600870000014654502210011152899810241744436008700000150145022100111560903403970444360038100001579625151001114555287005354443600623000015216251510010998436800164844436004130000154160016100109986903602531444360024700001496575171001099963418027004443600164000010635251910011150655140203544436006230000114470012100111430784001767444360062300001130700121001114163507030584443600198000010454502215011154171610299544436001980000104545022150111497359502474444360062300001045450221501114414434)
 (.leaf 2308444360062300001065450221501115287210027304443600198000010564502215011148170490326744436001980000111045022150111495259003395444360019800001092450221001114490289034764443600623000011184502215011147734480332044436006230000111045022150111496436202896444360062300001083450221001115525310026724443600623000010744502210011000538910271044436006230000103745022100110005566403369444360062300001110450221001115170956022574443600623000010304502210011152865500161944436006230000095245022100111472586801048444360054000000694600161501099851300019984443600026000010715751715011151019980331444436000260000108057517150111555546803314444360002600001134575171501114525001)))))
 (.node 8 (.node 4 (.node 2 (.node 1 (.leaf 3314444360002600001117575171501115329463020234443600026000010715751715010999522750154644436000260000090457517150111505073802438444360002600001127575171501099923700028374443600026000011675751715011147784730289444436000260000115757517150109971633001001444360002600000779575171501115753414008194443600026000007205751710011145110410071644436000260000068357517100111461439000385444360002600000592575171501099973534005474443600341000008216001615011151891050045144436006230000078860016150111554657600203444360062300000759600161501099708434000824443600623000003976001615011152836110012744436006230000029160016150109984496600561444360062300000093600161501115565441)
 (.leaf 222444360062300000011600161501114777399004304443600623000000116001615011151360670026344436003070000000000003150109972235700350444360062300000350600161501115212810000234443600623000003616001615011139767770245144436004930000085530000100111332556803615444360062300001074300001001113325568011854443600486000000203000015010989199750318644436004860000000030000150109891997503186444360048600000000300001501098919975031864443600486000000003000015010989199750361044436004860000000030000150111348267203610444360048600000000300001501114092712036104443600486000000003000015011140927120361044436004860000000030000150111409271203610444360048600000000300001501114092712))
 (.node 1 (.leaf 3249444360048600000000300001501113482672032644443600486000000003000015011134826720320044436004860000000030000150111348267203200444360048600000000300001501113482672032004443600486000000003000015011134826720320044436004860000000030000150111348267203200444360048600000000300001501114058985032004443600486000000003000015011134826720320044436004860000000030000150111405898503200444360048600000000300001501114058985032004443600486000000003000015011140589850320044436004860000000030000150111405898503200444360048600000000300001501114058985031024443600486000000003000015011134826720310244436004860000000030000150111405898503037444360048600000000300001501114092712)
 (.leaf 3102444360048600000000300001501113482672031024443600486000000003000015011134826720239644436004860000000030000150109891997502396444360048600000000300001501113482672023964443600486000000003000015011134826720239644436004860000003030000150111348267202396444360062300000217300001501098919975001144443600623000001763000015011133255680030144436006230000043230000150111332556800057444360062300000189300001501113325568001594443600623000003363000010011133255680014144436006230000030330000100111332556800063444360062300000229300001001113325568002754443600623000004013000010011133255680117944436006230000074130000100111332556800979444360062300000680300001001113325568)))
 (.node 2 (.node 1 (.leaf 3225444360062300000649300001001113325568027664443600623000006223000010011133255680074944436004930000038330000100111332556802124444360040000000977525191001114558300006844443600134000006565002015011149888320060144436000170000030345022150109995614800724444360004800000403475211501100408117019554443600017000008054502210011153045710410044436008700000155945022100111546482703901444360087000001551450221001115890036037374443600870000015474502210011156879450395144436008700000155645022100111548923403942444360087000001551450221001113567248038494443600870000015474502210011156996600408444436008700000155945022100111415351703680444360087000001535450221001113325568)
 (.leaf 4014444360087000001556450221001113325568028724443600870000014794502210011133255680396844436008700000155645022100111590441902819444360087000001092450221001113346906015784443600870000008864502207010999885740196144436008700000089845022070109975772301961444360068600000867450220701100120597024614443600357000008674502207011155881830236644436007710000085045022070110063317102366444360087000001300450220701115954448023664443600870000013214502207011001995310155944436008700000141745022070111635704701559444360087000001427450220701100030484015594443600870000013794502207011003852270206744436009580000139645022070109998277401643444360098600001354450220701116338013))
 (.node 1 (.leaf 1643444360087000001300450220701100004827020674443600870000013214502207011005365600206744436008700000137945022070111594589102067444360087000001396450220701115353356020674443600870000013794502207011158082660269144436008700000139645022070110055490203386444360087000001470450220701116003932040674443600870000015244502207011143556730407044436008700000152445022070111498517403727444360087000001490450220701114673905036084443600870000014794502207011159214720297844436008700000147945022070111484309701552444360087000001479450220701115284763018614443600870000014354502207011009465960260144436008700000144345022070111605046603163444360087000001427450220701116429872)
 (.leaf 3006444360014800001321450220701100386347028954443600060000013004502207011005114500292644436008700000151045022100111393598702499444360087000001354450220701114021954018684443600903000012834502207011150933950189444436008920000128345022070111497641903059444360087000001518450221001114196026011264443600870000014534502210011163865140199544436008700000152445022100111617579203510444360087000001542450220701115768402036474443600870000015564502207011144307720257544436008700000155645022100111591414803035444360087000002768450221001115005216032834443600870000015634502210011141651100370044436008700000156345022100111405446604002444360087000001563450221001114500052))))
 (.node 4 (.node 2 (.node 1 (.leaf 653444360087000001217450221001114282919019174443600870000014274502210011143471430250144436008700000147045022100111573908102168444360087000001453450221001115736249013524443600870000013964502210011153556920099544436008700000097845022100111515931101966444360087000000992450220701114669438013794443600870000014174502210011151201180345644436008700000153545022100111390372603157444360037800001540625151001114655465003664443600623000013816251510010999013850053544436006230000154662515100110011405601648444360062300001513650141001099804066016484443600623000015317001210011153588220131644436006230000150370012100111422170401090444360062300001445700121001115602944)
 (.leaf 1425444360062300001503700121001115282191015214443600623000011227001210011146163840075944436006230000103170012100111474632601997444360062300001031700121001114771078022034443600623000011127001210011145495110220444436006230000112270012100111466785601623444360062300001067650141001115145883031564443600198000010564502210011146457430248644436006230000104545022100111507478302498444360062300001045450221001114470216022704443600623000010374502210011145211870276044436006230000106545022100111457772201166444360062300000916450221001114849089015334443600623000009784502215011161866160193044436006230000100945022150111574107202011444360062300001045450221501100072012))
 (.node 1 (.leaf 1983444360062300001037450221501114811429011124443600623000010564502215010999165120348344436001980000109245022100111449028903897444360062300001146450221501115877501030114443600623000010924502215011148684920339644436006230000112845022150111453487003646444360062300001153450221001114683987035894443600623000011534502215011140884900329144436006230000113445022100109995055802710444360062300001110450221001099852725027104443600623000011184502210011001020030306344436006230000104545022100110002694400976444360062300000917550181001114585475007964443600623000005796001610011181888680042144436006230000055460016100111512971601224444360062300000665600161001100055828)
 (.leaf 3005444360002600001080575171001114552604025044443600026000010395751715011140291000145344436000260000089157517150111482474301677444360002600000922575171501114729393024794443600026000010715751715011002135300252944436000260000109857517150109993156800845444360002600000429575171001100822796007064443600026000008735751710011005464470045144436000260000090457517150110035659702576444360062300000732600161001114539918009624443600623000012966001610011151437390041644436006230000089960016150111534858300590444360062300001227600161501115164213002994443600623000011296001610011144836430000044436006230000036160016150111442221100000444360062300000184600161501114511791)))
 (.node 2 (.node 1 (.leaf 3702444360049300000834300001001113325568023954443600623000005943000010011133255680136244436006230000048130000100111332556803186444360048600000000300001501099163242031864443600486000000003000015011140927120318644436004860000000030000150111409271203186444360048600000000300001501114092712031864443600486000000003000015011140927120318644436004860000000030000150111409271203186444360048600000000300001501113482672024314443600486000000003000015011134826720243144436004860000000030000150111412724603610444360048600000000300001501113482672036104443600486000000003000015011134826720361044436004860000000030000150111412724603610444360048600000000300001501113482672)
 (.leaf 3610444360048600000000300001501113482672036104443600486000000003000015011134826720361044436004860000000030000150109916324203610444360048600000000300001501099163242036104443600486000000003000015011134826720361044436004860000000030000150111348267203610444360048600000000300001501113482672036104443600486000000003000015011141272460361044436004860000000030000150111412724603610444360048600000000300001501114127246030374443600486000000003000015011134826720303744436004860000000030000150111412724603037444360048600000000300001501113482672030374443600486000000003000015011134826720303744436004860000000030000150111348267203037444360048600000000300001501099163242))
 (.node 1 (.leaf 3037444360048600000000300001501114127246030374443600486000000003000015011134826720303744436004860000000030000150111348267203037444360048600000000300001501114127246023964443600486000000003000015010991632420303744436004860000000030000150109916324200651444360048600000028300001501099163242002794443600486000002053000015011133255680011544436004860000013830000150111332556800213444360062300000205300001501113325568003164443600623000004703000015011133255680014944436006230000033630000100111332556800853444360062300000644300001001113325568002054443600623000003673000010011133255680116944436006230000074130000100111332556801476444360062300000831300001001113325568)
 (.leaf 2152444360062300001261300001001113325568022534443600623000012833000010011133255680281744436005760000105452519100111332556801032444360001700000680450221501100134129007654443600017000006444502215011004388870374944436008700000154245022100111542919103681444360087000001535450221001115693401029504443600940000015244502210011145833390324644436008850000151845022100111578946903194444360087000001524450221001115408777026494443600911000015354502210011148951390408644436008700000155945022100111435372603927444360087000001551450221001115529011032084443600870000015104502210011163737510304144436008610000149045022100111478179603816444360087000001547450221001114106363))))))
 (.node 16 (.node 8 (.node 4 (.node 2 (.node 1 (.leaf 3522444360087000001528450221001114855886037434443600870000015424502210011149136410221044436006560000051645022070110084170501870444360065600000481450220701100409844023664443600870000014274502207011153852180236644436008700000141745022070110031768702366444360094200001427450220701100506360015594443600870000013964502207011003749670155944436010220000143545022070110000351901559444360093200001427450220701100076611023664443600904000013794502207011002268980164344436008700000139645022070110068698601643444360087000001321450220701100766370016434443600891000013394502207011006131860316244436008700000144345022070111567320502601444360092100001427450220701100222505)
 (.leaf 3006444360090400001453450220701114947724030064443600996000014534502207011004749990300644436006130000141745022070110061639202746444360085800001339450220701100484485016124443600870000012834502207011152930130159444436008700000132145022070111470808601490444360087000001300450220701115606604016934443600576000012834502207011152052630194944436004130000135445022070111516004801588444360086700001510450221001100799697019684443600862000020354502210011151673410161044436008650000191745022100111556606302418444360084200001559450221001114802866020424443600846000015594502210010998319550327844436008700000155945022100111506953601802444360087000001443450221001115075556))
 (.node 1 (.leaf 1557444360087000001479450221001114781366020884443600870000014904502210011149486250278544436008700000150145022100111646789503814444360087000001501450220701115764621038854443600870000015104502207011145490090419344436008700000153545022070111590952203159444360087000001518450221001115923939031794443600377000015406251510011147097700221844436006230000154062515100111470977000535444360062300001545700121001115558269009744443600623000015317001210011004259960120344436006230000141770012100111446694301510444360062300001472700121001114745192020784443600198000013197001210011149877520097044436006230000109370012100110044726301522444360062300001030450221001114927806)
 (.leaf 1759444360062300000978450221001115734493017594443600623000010304502210011149411580279844436006230000109245022100111508799801041444360062300000952450221001100368337017214443600623000009924502210011149981110165744436006230000102545022100110077512103348444360062300001110450221001114987955020654443600623000010254502215011005835610111244436006230000099245022150111563679801672444360062300001092450221001099981276032514443600623000011104502215011141926620351844436006230000113445022100111463932903774444360062300001162450221001114054172036834443600623000011464502210011000155830343644436006230000114645022100111446696402710444360062300001110450221001114843352)))
 (.node 2 (.node 1 (.leaf 3253444360062300001128450221001114640232032534443600623000010564502210011151317450205144436006230000108247521100110030417000585444360062300000877600161001114749338011034443600623000006276001615011007439460193544436002150000105160016100110046282203019444360002600001127575171501100568922029184443600026000010715751715011008664950103744436004130000058960016100111488731701292444360018600000948600161001100395136006184443600467000008946001610011005245130005844436006230000075960016100111589526400126444360062300000691600161001115150291000004443600623000000056001615011005070110000044436006230000006960016150111506456800000444360062300000083600161501115323292)
 (.leaf 133444360062300000314600161501115011559003934443600623000001326001615011145969080259544436006230000060830000100111332556800624444360062300000395300001001113325568002694443600623000003833000010011133255680115544436006230000037330000100111332556800509444360062300000358300001001113325568016594443600486000000003000015010994058490203444436004860000000030000150111348267202034444360048600000000300001501113482672020344443600486000000003000015011134826720203444436004860000000030000150111416257102034444360048600000000300001501113482672024314443600486000000003000015011134826720243144436004860000000030000150111348267203610444360048600000000300001501113482672))
 (.node 1 (.leaf 3610444360048600000000300001501113482672036104443600486000000003000015011134826720361044436004860000000030000150111348267203610444360048600000000300001501114162571036104443600486000000003000015011134826720361044436004860000000030000150111416257103610444360048600000000300001501114162571033704443600486000000003000015011134826720303744436004860000000030000150109940584903037444360048600000000300001501113482672030374443600486000000003000015011141625710303744436004860000000030000150111348267203037444360048600000000300001501113482672030374443600486000000003000015011134826720303744436004860000000030000150109940584903037444360062300000118300001501113482672)
 (.leaf 1255444360062300000029300001501113325568012934443600486000000253000015011133255680034444436004860000013330000150109940584900530444360062300000427300001501113325568009274443600623000004883000010011133255680143344436006230000080530000100111332556800792444360062300000956300001001113325568014094443600623000011493000010011133255680198244436006230000124530000100111332556801162444360102000001064475211001115324416013384443600017000005734502215011006489040207144436000170000086745022150111593415601903444360001700000867450221001100637252028884443600870000015014502210011005760810246644436009040000150145022100110088968602538444360087000001510450221001115960548))))
 (.node 4 (.node 2 (.node 1 (.leaf 1582444360087000001501450221001100836354029644443600870000014904502210011139723560295544436008700000149045022100111580411102967444360087000001490450221001115706469022024443601001000015244502210011153245570356844436008700000154745022100111487135003609444360087000001547450221001115009310033534443601048000015184502207011156158330342944436010220000151045022070111603813003550444360094800001490450220701116197544027684443600890000014904502210011146800380391244436008700000155145022100111504806703717444360087000000707450220701115702794028284443600870000012834502207011006409310236644436008910000141745022070110114596102366444360087000001427450220701100434201)
 (.leaf 2366444360090400001427450220701100953808023664443600953000014534502207011010261610155944436009640000146545022070110111609001559444360093700001417450220701100807743023664443600996000014704502207011010146820164344436010120000143545022070110096210201643444360085600001501450220701100661258016434443600862000014534502207011010097830164344436009710000142745022070110086575401643444360084500000936450220701100986405017174443600849000005434502207011008175050171744436008560000052945022070110079453601717444360085800000500450220701100754275017174443600856000005164502207011009232470171744436008620000093645022070110108954202601444360086500000898450220701115722703))
 (.node 1 (.leaf 2601444360087000000992450220701115917757026014443600870000009524502207011004464330260144436008700000145345022070110066392503006444360087000001443450220701100549322030064443600870000014654502207011009726920274644436008700000139645022070110057610601260444360087000001321450220701115696996012604443600613000012174502207011008585340158844436005490000114945022070110081186501588444360059200001217450220701100720837015884443600853000014174502210011007692330337544436007040000154745022100111546102701929444360087000001435450221001115747657015964443600870000014274502210011151134390287744436008700000145345022070111454516401750444360087000001427450220701115194158)
 (.leaf 1750444360087000001354450220701115914995030894443600870000014274502207011015544690215644436008700000153545022070111492187300813444360087000001542450221001114418286014414443600870000015474502210011145370340144844436008700000151845022100111482642303600444360087000001490450220701115825687036974443600870000014904502207011157785290347144436008700000147945022070111530352602021444360087000001490450221001114543522025674443600870000015594502210011140455830351144436008700000154745022100111393227504644444360013400001542300001001115696726032994443600377000015406251510011147097700325944436003790000154062515100111444709501792444360062300001506625151001114379518)))
 (.node 2 (.node 1 (.leaf 707444360062300001296600161001101502868004314443600623000013537001210011148493450043144436006230000141770012100111585273200230444360062300001276700121001115875660014214443600623000014457001210011146930420213144436001980000136070012100111463519001097444360062300001031700121001114583428010914443600623000010597001210011157491110121044436006230000103355018100110071838001522444360062300000992450221001100916042017314443600623000010304502210011006018480170244436006230000104545022100110057573101702444360062300000583450221001114816934017314443600623000005944502210011150926260173144436006230000108345022100110063329102285444360062300001083450221001100776004)
 (.leaf 2285444360062300001065450221001114794322026574443600623000011104502210011009821370238744436006230000113445022100111480440301956444360062300001128450221001100321085034894443600623000011184502210011152381050325344436006230000112845022100110044191703139444360062300001092450221001114507597033764443600623000011104502210011151188360245744436006230000110857517100111416732402108444360062300000710600161001116438936011984443600623000006476001610011162407620059744436006230000058960016100111471353301603444360062300001116600161001115269357028104443600623000011656001610011141509560393844436000260000114857517150111477480902367444360002600001062575171501100822143))
 (.node 1 (.leaf 3019444360002600001080575171501115410361029244443600026000011175751715011151778880280944436000260000109857517150110157125901690444360007200000948600161001115880592014934443600605000010276001610011158250990076044436001340000075960016100110096551500618444360014800000841600161001116116705006184443600198000009906001610011153515960031844436004500000040860016100110065669700300444360057600000431600161001116003858001814443600623000004406001610011157563340018144436006230000049060016100111515125900351444360062300000472600161001114425015000094443600623000002636001615011009106160000044436006230000029160016150110053309200000444360062300000061600161501114585173)
 (.leaf 444360062300000200600161501115082787000004443600623000002156001615011156357120000044436006230000025560016150111523606200029444360062300000372600161001115758198028204443600493000006083000010011133255680088844436004930000039530000100111332556800532444360062300000367300001001113325568002684443600623000002963000010011133255680188344436004930000045730000100111332556801405444360049300000358300001501113325568001514443600623000002363000015011133255680010344436004860000007330000150111332556800237444360048600000104300001501113325568024314443600486000000003000015010996477810361044436004860000000030000150111348267203610444360048600000000300001501113482672)))))
 (.node 8 (.node 4 (.node 2 (.node 1 (.leaf 3610444360048600000000300001501113482672033704443600486000000003000015011134826720016844436006230000026030000150111332556800105444360062300000236300001501113325568000084443600623000000913000015011133255680004444436006230000007130000150111332556800156444360062300000137300001501113325568007934443600486000001573000015010996477810079344436006230000074130000100111419867001776444360062300001149300001001099647781015454443600623000011803000010011133255680197344436004930000102030000100111332556802225444360093100001064475211001115362661031714443600617000011005251910011154009070134944436009330000103550020100111525288301944444360010000000688475211001100762768)
 (.leaf 1542444360013600000688475211501115893721020714443600148000008205002010011006795960221944436009480000146545022100110129740802956444360087000001490450221001101029251006804443601096000014904502210011162822250224544436008700000143545022100111468205401561444360093500001417450221001115009529015154443600980000014534502210011156143930259844436009420000150145022100110110230603132444360087000001501450221001115895741036924443600972000015014502207011158543730348244436010300000151045022070111643441803085444360104600001490450220701115292634032824443600870000014534502207011014849150365244436008700000145345022070110102191004004444360087000001479450220701116083795))
 (.node 1 (.leaf 4182444360087000001524450220701115098091039094443600870000014904502207011162966020319944436008700000142745022070111440472802366444360109600001427450220701100904986023664443600964000014174502207011013988770236644436009480000144345022070111623451802366444360089100001443450220701100869093023664443600870000013794502207011159763210236644436008700000139645022070111621863802366444360087000001427450220701115842908023664443600870000014354502207011164647720236644436008700000142745022070111607395002366444360093200001427450220701115870952023664443600978000014354502207011157225030236644436008670000141745022070110117199001643444360086500001396450220701115430057)
 (.leaf 1643444360084600001465450220701101351026016434443600845000004814502207011009995700164344436008450000077445022070110088695701643444360084500000850450220701115746404017174443600870000008314502207011009901110244544436008670000083145022070110116393802445444360086200001427450220701101273585024454443600867000014354502207011159562730244544436008700000143545022070111577109302445444360087000001417450220701115538116027464443600870000014274502207011010342590274644436008700000141745022070111570690505126444360054900001180450220701101020731011774443600549000006804502207011011325300142044436008700000101745022100111352183902333444360087000001465450221001114449032)))
 (.node 2 (.node 1 (.leaf 2300444360087000001470450221001116873446026144443600870000014794502210011158556340358244436008700000154745022100111433782603754444360087000001556450221001114654468036504443600870000015474502210011150897030385044436008700000155645022100112001749603659444360087000001547450221001114686287036674443600870000015514502210011145830380285644436008700000147045022070110112871603265444360087000001490450220701101041575041554443600870000015424502207011143423930371044436008700000149045022070110084135003056444360087000001490450220701101414776033154443600870000015424502210011157849030147244436002260000085045022100111523370001261444360011600000774450221001115239267)
 (.leaf 1733444360032200001245450221001115676890022074443600613000013544502210011151913260110844436008700000128345022100111478615803158444360084800001542450221001114374872011234443600848000015514502210011150542760163244436008480000155645022100111500467802931444360084800001559450221001114881181038814443600848000015634502210011140430400394844436008480000156345022100111337458800545444360062300001236700121001114424695002874443600623000011597001210011148164320044544436006230000122470012100111440897200675444360062300001276700121001114812560030794443600623000015717001210011145513530146644436006230000144570012100111463550101168444360062300001376700121001113834521))
 (.node 1 (.leaf 1215444360062300000886450221001115764670014684443600623000009364502210011143825050097144436006230000051645022100111533254200681444360062300000831450221001115911137013594443600623000011386501410011010120480173144436006230000116757517100111585637202029444360062300001056450221001101022069031954443600623000011404502210011007840710202944436006230000111845022100110090615304208444360019800001146450221001114761329034694443600623000011184502210011139019250407644436006230000117145022100111400321104102444360062300001171450221001114513748007824443600623000005445501810011146553120168044436006230000067660016100110230202003838444360003500001148575171501115147390)
 (.leaf 2674444360002600001052575171501115690979025694443600026000010395751715011153402850207044436000260000102357517150111535361602924444360002600001098575171501101051206025974443600026000010525751710011143745920208044436000260000100357517100111502051502719444360002600000687575171001114185357020084443600026000009675751710011012727290128044436000260000105257517100111548558501280444360002600001039575171001115817149012804443600623000005396001615011009573900000044436006230000043160016100110154177700000444360062300000372600161501114751941000004443600623000002156001615011147053630000044436006230000015060016150111498098600000444360062300000112600161501114595948))))
 (.node 4 (.node 2 (.node 1 (.leaf 444360062300000135600161501114772527000004443600623000001506001615011155769260000044436006230000020860016150111495234900225444360062300000421600161001115121773007314443600493000003673000010011133255680069444436006230000039530000100111332556800696444360062300000395300001001113325568004284443600493000002963000010011133255680047044436004930000036430000150111332556800234444360048600000303300001501113325568001464443600486000001893000015011133255680010844436004860000016830000150111332556802034444360048600000000300001501099889017024314443600486000000003000015011134826720243144436004860000000030000150111348267202431444360048600000000300001501099889017)
 (.leaf 2259444360048600000000300001501114235527036104443600486000000003000015010998890170361044436004860000000030000150111348267203610444360048600000000300001501113482672033704443600486000000003000015011134826720321844436004860000000030000150109988901703037444360048600000000300001501113482672030374443600486000000003000015011141986700303744436004860000000030000150111419867003037444360048600000000300001501114198670030374443600486000000003000015011141986700178544436004860000000030000150109988901703037444360048600000000300001501114198670030374443600486000000003000015010998890170303744436004860000001230000150111348267200184444360048600000098300001501099889017))
 (.node 1 (.leaf 100444360062300000090300001501114235527001064443600486000000653000015010998890170204744436006230000055730000100111332556803549444360062300001465300001001099889017017094443600623000013003000010010998890170149644436004930000069030000150111332556806855444360000600003811450221001113552752072734443600028000048175501810011138689180711744436000280000473655018100111585502207517444360002800006289550181001113599188029844443600851000012435251910011156713230239044436006170000103452519100111593361301387444360061700000991525191001100990744027494443600617000010635251910011009165650338944436008700000151845022100111463484604167444360087000001518450220701115517646)
 (.leaf 3557444360098300001465450220701101161108022194443600870000014354502207011011517640377844436008700000146545022100110144773803604444360090400001556450221001115697145022244443600870000014434502210011010260260350244436008700000147945022070110152116303746444360090400001490450220701115653611037474443600870000014704502207011163521250344644436009180000146545022070111610043403282444360099600001453450220701115972562028274443600989000014704502207011149489400282744436009420000142745022070111602079902827444360089100001417450220701101210640036724443600870000014274502207011157185460343044436008700000142745022070110136275104299444360087000001535450220701114930726)))
 (.node 2 (.node 1 (.leaf 2366444360092100001427450220701101240767023664443601096000013794502207011016377400236644436009320000141745022070110146901601643444360084900001427450220701115208151016434443600856000014274502207011157354490164344436008450000145345022070110133181101643444360084500001435450220701100896679016434443600144000008054502207011008387030171744436001440000088645022070111514297001717444360034100000468450220701114937584017174443600853000009164502207011008424120244544436008480000097845022070110094850102445444360084500000992450220701100998852024454443600848000013964502207011013243540000062636008480000139645022070110145190310592411360084600001354450220701100912232)
 (.leaf 626360084500001009450220701116891563000006263600845000009784502207011155619000000062636008450000068045022070111594954100000626360084500000831450220701115407284000006263600846000008674502207011018739160512644436008700000126145022070111592261605126444360011600001180450220701101368939051264443600576000005584502207011011493170512644436003660000077445022070111581003101774444360013400000774450220701100905173037764443600870000015184502207011008550660341944436008700000147945022070111512381903928444360086700001547450220701101047446029754443600870000015104502207011149618750285644436008700000146545022070110133449103265444360087000001470450220701116200569))
 (.node 1 (.leaf 3265444360087000001490450220701116068407032654443600870000015354502207011157738000326544436008700000154745022070111585053203265444360087000001551450220701115626279032654443600870000015244502207011147950520326544436008700000152845022070111584023203056444360087000001528450220701100787715029664443600837000015284502207011157273260255044436007820000153545022100110151493003260444360087000001563450221001114006348036364443600870000015594502210011142305810261644436008700000147945022100111521311502410444360087000001465450221001115363541028844443600870000015014502210011142622520026644436008350000098745022100111445196800740444360057600000741450221001114962224)
 (.leaf 1226444360032200001180450221001115411560006074443600870000011994502210011144384260145444436008700000135445022100111576005600392444360087000001115450221001115214796012454443600870000013004502210011144160430095544436008480000151845022100111491833700577444360084800001535450221001115793961010304443600848000015424502210011149913720088544436008480000154745022100111639291200362444360084800001535450221001114712166001994443600848000015564502210011145727580032344436008480000155945022100111483696600403444360084800001559450221001113801744005104443600848000015474502210011144611240295144436008480000154745022100111453639802655444360082200001335390251001115096195)))))))
 (.node 32 (.node 16 (.node 8 (.node 4 (.node 2 (.node 1 (.leaf 1348444360062300000898450221001114968818006024443600623000004895002010011157003230043744436006230000054957517100111462631100914444360062300000922575171001115954537010094443600623000009486001610011150408990085544436006230000057960016100111550603800878444360062300000561575171001115343946011754443600623000006336251510011154603330149444436006230000107765014100111479486900778444360062300000971675131001115266331008634443600623000010097001210011152094140135944436006230000105160016100110139676201754444360062300001030450221001102227911020294443600623000010254502210011016407220202944436006230000106545022100110152563702029444360062300001056450221001115219853)
 (.leaf 2029444360062300001045450221001115911184017184443600623000010304502210011019125530385444436001980000111045022100111515291403839444360019800001101450221001115062803037964443600198000011014502215011154813410232844436006230000102545022150111426850000730444360062300000509600161001114966937007304443600623000005546001610011157973430047244436006230000056460016100111513390000356444360062300000490600161001101495243007524443600623000005646001610011163496880263944436000400000105257517150111551869002275444360003700000968575171501115414184028114443600026000006965751710011152657390227144436000260000067757517100111490357002623444360002600001052575171001115773551))
 (.node 1 (.leaf 1319444360002600000967575171001115366773013194443600055000005646001610011159523730200844436002470000097460016100110135485000552444360055800000665600161001101374124012804443600540000006476001610011012957860128044436006230000070360016100111530709401444444360062300000686600161001114876896020874443600623000006946001610011011294430099644436006230000065560016100110110879400945444360062300000647600161001114998271009454443600623000004726001615011013070780007544436006230000029160016150110153109600000444360062300000027600161501115714739000004443600623000001076001615011142784720000044436006230000018460016150111486519000087444360062300000387600161501114752538)
 (.leaf 201444360062300000421600161501114684125006004443600623000005246001610011144533640130544436006230000062760016100111435037300972444360049300000395300001001113325568009304443600493000003953000010011133255680030644436006230000029630000100111332556800227444360062300000193300001501113325568001124443600623000001053000015011133255680024544436006230000019330000150111332556800398444360062300000322300001001113325568005284443600623000003573000010011133255680243144436004860000000030000150110012953803610444360048600000000300001501100129538036104443600486000000003000015011134826720361044436004860000000030000150111348267203610444360048600000000300001501113482672)))
 (.node 2 (.node 1 (.leaf 3370444360048600000000300001501113482672029484443600486000000003000015011134826720294844436004860000000030000150111427312502948444360048600000000300001501113482672029484443600486000000003000015011134826720303744436004860000000030000150111423552703037444360048600000000300001501113482672030374443600486000000003000015011142355270303744436004860000000030000150111348267203037444360048600000000300001501113482672017854443600486000000003000015011142355270178544436004860000000030000150111423552701785444360048600000000300001501100129538006954443600486000000203000015011001295380048244436004860000034830000150111332556800202444360062300000193300001001113325568)
 (.leaf 185444360062300000176300001501113325568002364443600623000001933000015011133255680107644436006230000042630000100111332556802641444360049300001076300001001113325568041084443600623000014433000007011133255680223444436006230000152430000100111348267202255444360062300001435300001001100129538013344443600493000004363000015011133255680688544436000060000381145022100111355275206564444360000600003304450221001114003797069124443600028000043055501810011142634540650244436000280000400655018100111351326206648444360002800004305550181001113798938072494443600028204248995501810011144963720735544436000280000614755018100111400722606971444360014400006100550181001114656783))
 (.node 1 (.leaf 6399444360060500006169550181001116045143066804443600247000061365501810011145298530483644436006890000485655018100111494758306073444360068900006079550181001114431685053654443600601055353945501810011157294280610144436006170000599755018100111504066006833444360016400005943550181001114469585069964443600221000062355501810011144057110699744436005280000653255018100111569106207124444360028302346289550181001114944380069794443600207000061475501810011152107670258944436006170000104252519100111679736801761444360061700000951525191001116970590018524443600617000009775251910011150838820192344436006170000099152519100111500220202086444360061700001008525191001114549999)
 (.leaf 2295444360061700001034525191001115441726020554443600839000010545251910011155827560018744436010740000099947521100111415653903574444360087000001528450221001115123228036424443600870000014434502207011013067970376644436008700000150145022070110170832900572444360087000001524450220701101380508031334443600870000015014502210011138979600220844436008700000142745022100111548298603262444360095300001479450220701101145862030124443600928000014534502207011159563770326244436008910000144345022070111699217403012444360087000001470450220701101678095028274443600915000014794502207011152455800332244436009160000142745022070111512384003322444360087000001427450220701115628520))))
 (.node 4 (.node 2 (.node 1 (.leaf 3322444360087000001396450220701116344167033224443600870000014274502207011016660570412844436007040000150145022070111502103603856444360082800001535450221001113875546030694443600888000014274502207011157693670292944436008720000137945022070111601578403255444360089100001396450220701116393408023664443600882000013794502207011017377610236644436008450000144345022070110166305302366444360090800001396450220701101363220016434443600845000005434502207011019913720164344436001440000051645022070111516744201643444360063400000644450220701115795023016434443600164000007414502207011013158740171744436000250000043645022070111562883001717444360002100000451450220701114961167)
 (.leaf 1717444360002100000516450220701115481050016434443600022000004814502207011012288450171744436000250000052945022070110095889801717444360001100000516450220701115912717024454443600019000004514502207011009784520244544436008450000093645022070110116414702445444360084500000866370260701101322574024454443600845000008663702607011160158230244544436008450000097845022070111516734102445444360084500000978450220701101300777024454443600845000005944502207011011905641059241136008450000054241024070110123825610592411360084500000831450220701101713975051264443600845000008504502207011017328360512644436005580000095645022070110136738300568444360006400000589450220701101350672))
 (.node 1 (.leaf 660444360070900000573450220701101538780026304443600862000013964502207011013769940178344436008700000126145022070110169994703024444360085300001501450220701115941414030244443600849000014704502207011158269970166544436008580000143545022070111681874401665444360085600001443450220701117256884028564443600845000014704502207011016971040326544436008580000146545022070110181233704204444360087000001551450220701115127628031264443600870000014704502207011164598530267744436008700000143545022070111649470903033444360087000001453450220701115875079036994443600870000015474502207011010122630369944436008700000152845022070110135162003884444360087000001524450220701114866003)
 (.leaf 2619444360087000001542450221001114880213031664443600870000015244502210011149308840231244436008110000064945022100111332556802143444360087000001435450221001115859600012254443600870000013004502210011146251030160044436008700000137945022100111495609102762444360084800001535450221001114316838014274443600848000014904502207011151350820061344436008480000149045022070111513264500190444360084800001510450220701114667996000004443600848000015424502207011017999060011344436008480000152845022100111601817700113444360084800001524450221001115336262000254443600848000015284502210011016753410002544436008480000151045022100111521518800000444360084800001501450221001115916582)))
 (.node 2 (.node 1 (.leaf 444360084800001490450221001115159740000004443600848000014794502210011017699310005644436008480000151045022100111576253800021444360084800001528450221001115781463004904443600848000015474502210011148283970143044436008480000152845022100111574132302046444360084800001535450221001115149890022154443600848000015354502210011152166900263644436008480000152445022100111527474003478444360084800001591625151001113843653033904443600848000015916251510011133255680283844436008480000159162515100111367023202288444360084800001352390251001114789948016824443600848000013323902510011156967770157244436008480000125339025100111642835601450444360019800000808575171001115563260)
 (.leaf 1339444360062300000898450221001115168603011294443600623000008864502210011142950930157744436006230000095245022100111539028701590444360062300000952450221001115005316019754443600623000010094502210011158760300219244436006230000101745022100111569571601571444360062300000952450221001115304908018514443600623000009924502210011147734700175444436006230000104545022100110174010601609444360062300001045450221001101530596020294443600623000010374502210011150393860160944436006230000103045022100110159354101609444360062300001017450221001101754307017184443600623000010304502210011162022780231744436006230000105645022100110180247702317444360062300001083450221001115327554))
 (.node 1 (.leaf 3243444360062300001110450221001114810983027094443600623000011104502210011157034060291344436006230000112845022100111561058303321444360062300001134450221001115355553032164443600623000011184502210011142257270338444436006230000110145022150111404921702314444360062300001025450221001101354063011464443600623000010155501810011159067070047244436006230000060560016100110180124700485444360062300000509600161001114138927030474443600040000006965751710011152657390272044436000420000067757517100111528205002716444360002600000677575171001115676842003094443600623000004646001610011018853860030244436006230000047260016100110167345100503444360062300000509600161001115500631)
 (.leaf 967444360062300000627600161001114732037010884443600623000006556001610011150256060125844436006230000107862515100111637448001280444360062300001087625151001101407276012014443600623000006746251510011149182680094544436006230000027860016150110111257400075444360062300000036600161501101053130000004443600623000001126001615011013311680000044436006230000028660016100111481101500224444360062300000421600161001114923667008914443600623000005646001610011148395990185944436006230000067660016100111483484900953444360049300000395300001001113325568004644443600493000002963000010011133255680006744436006230000018130000100111332556800111444360062300000199300001001113325568)))))
 (.node 8 (.node 4 (.node 2 (.node 1 (.leaf 221444360062300000244300001001113325568002484443600623000002253000010011133255680008544436006230000012630000150111332556800538444360062300000367300001001113325568036104443600486000000003000015011003693290361044436004860000000030000150111348267203610444360048600000000300001501113482672036104443600486000000003000015011134826720337044436004860000000030000150111348267203370444360048600000000300001501113482672029484443600486000000003000015011143114470294844436004860000000030000150111431144702948444360048600000000300001501113482672029484443600486000000003000015011134826720294844436004860000000030000150111431144702948444360048600000000300001501114311447)
 (.leaf 2948444360048600000000300001501113482672029484443600486000000003000015011143114470294844436004860000000030000150111348267201785444360048600000000300001501100369329000554443600623000001313000015011133255680006444436004860000007130000150111332556800571444360062300000260300001501113325568004264443600486000000853000015011133255680031344436004860000012630000150111332556801082444360049300000202300001501113325568011844443600493000002843000015011133255680044044436004860000008030000150111332556800462444360062300000167300001001113325568010804443600623000004263000010011133255680135744436004930000043630000150111332556806235444360004000003754650141001115938882))
 (.node 1 (.leaf 6712444360002800004164550181001114123927064664443600028000037065501810011142075020633544436000280000354055018100111426255306303444360020700004164550181001113909324056794443600028000029295501810011142836390475544436000280000267255018100111452355704245444360002800002413550181001115167411047044443600113000029035501807011013553430422144436005170000286655018070110195631304221444360024700002990550180701101658945037394443600384000031725501810011012726550431144436006390000373355018070111522016304439444360068900003820550180701115471756050174443600689023045205501807011159396930635644436006890000579055018070111452806907229444360068900006888550181001115284888)
 (.leaf 7653444360068900006999550181001115875399026094443600926000010295251907011145643190253444436006170000097752519070111491193302702444360061700000991525190701115422352031404443600617000010345251907011155136670363944436008710000147045022070110158469003305444360087000001501450220701102510878027674443600870000014704502210011142627340324744436008910000142745022070110151590603012444360102700001443450220701101917945030124443600870000014274502207011018937020301244436008910000141745022070111634018402827444360095800001427450220701115655950033224443600937000013964502207011020702690387144436008320000151045022070111509576903255444360087000001354450220701102098697)))
 (.node 2 (.node 1 (.leaf 2947444360087000001354450220701115745479023664443600870000014534502207011023285110236644436008450000137945022070110197194502366444360079300000481450220701115805317023664443600807000004164502207011152701380236644436004860000040245022070111518926502366444360038400000383450220701115616719023664443600198000003674502207011156423870236644436004860000039545022070111523813302366444360048600000395450220701116113564023664443600423000004164502207011149551150236644436001980000040245022070111589918401643444360010000000426450220701115759475016434443600144000003674502207011150319970164344436000260000034545022070110161878301643444360002600000383450220701115052077)
 (.leaf 1643444360002600000714450220701101365933016434443600064000006804502207011157675640164344436005580000077445022070111573294801643444360055800000850450220701101715207016434443600026000008864502207011013528940164344436007420000083145022070110163256001643444360001400000416450220701101418905024454443600022000004364502207011012964740244544436000550000045145022070110148457403181444360084500000860390250701114844445105924113600845000008133702607011151765740244544436008450000089239025070111607929010592411360084500000874390250701101623203051264443600845000008354102407011015796971059241136008450000071639025070111550406510592411360084500000815410240701115660323))
 (.node 1 (.leaf 5126444360084500000835410240701115219368105924113600845000008704102407011159004530512644436008450000133945022070111620291405126444360084500001339450220701115867402051264443600845000013394502207011154665140512644436008420000132145022070111571899005126444360002600000518450220701101659990005684443600192000004704502207011154079320142644436001570000055845022070110135798301783444360074200001283450220701115320542017834443600366000010384502207011017835580000044436008320000114945022070111619199201707444360019800001230450220701101678994017074443600771000012454502207011157472190170744436007770000126145022070111575682501707444360077100001245450220701116493582)
 (.leaf 3265444360063400001339450220701102173149026754443600862000014434502207011156024270267544436008700000142745022070111483920102675444360087000001453450220701116072089026754443600862000014534502207011026310510267544436005490000111545022070110155763002675444360057600001199450220701101513946026754443600824000012304502207011016046240267544436008240000133945022070110228657902722444360087000001321450220701103191327027224443600870000014534502207011029581350290744436008700000141745022070111673947202907444360087000001435450220701116082810036994443600870000015184502207011014592090346344436008700000153545022070110156414203463444360087000001547450220701115305645))))
 (.node 4 (.node 2 (.node 1 (.leaf 1951444360087000001547450221001115938159019514443600870000015184502210011154463860341844436008700000152845022100111422524600459444360087000001149450221001115805208005924443600627000010384502210011145999060402844436008480000155645022100111553748200110444360084800001435450220701114920011001104443600848000014274502207011157091910011044436008480000139645022070110187512500000444360084800001396450220701115024993000254443600848000014354502207011020558800002544436008480000147045022070110187836300000444360084800001465450220701115909312000004443600848000014704502207011017664970000044436008480000151845022070111502224600005444360084800001510450220701101952338)
 (.leaf 5444360084800001479450220701115198678000124443600848000014354502207011018025810008344436008480000146545022070111593264600001444360084800001199450220701115289893000004443600837000007224752107011156022380000044436008480000139645022070110164679901850444360084800001443450220701115537108015364443600848000009364502207011157490620070844436008480000093645022100111460131402341444360084800001470450221001114515624018184443600848000013964502210011147752910652444436008500000457730002100111400740302952444360063400001233310291001115745878029984443600830000013523902510011154175930242144436008480000137339025100111535499201854444360084800001373390251001115895378))
 (.node 1 (.leaf 1291444360084800001454430231001115306910006174443600848000014995002010011146085980176544436008480000156450020100111396910201839444360084800001517430231001115298543033574443600848000014233902507011145713270232644436008370000127239025070110209351801158444360084800001179390251001115922257034704443600623000011104502210011141236270250344436006230000105645022100111516365302692444360062300001045450221001114714519029744443600623000014434502210011160139070179644436006230000095245022100111587137401336444360062300000886450221001115029826010344443600623000008314502210011158708630263444436006230000086745022160111490199501938444360019800000898450221001115625001)
 (.leaf 1638444360062300000978450221001102351414014144443600623000009364502210011159828590141444436006230000100945022100111568906701310444360062300001017450221001101998034013374443600623000010374502210011160555680133744436006230000104545022100111601603701754444360062300001056450221001115394246016094443600623000010564502210011022835070160944436006230000103045022100111572701301609444360062300001037450221001116214788014004443600623000010254502210011149676290133144436006230000101745022100110184027602511444360062300001074450221001114878498032684443600623000011014502210011148925080251644436006230000107445022100111542570502980444360062300001101450221001115267166)))
 (.node 2 (.node 1 (.leaf 3629444360062300001128450221001114391485025824443600623000010564502210011147043770230544436006230000106545022100111582030503289444360019800001056450221001114752144027174443600623000010564502210011151102180274144436006230000107445022100111484855102226444360062300001044475211001114777047013734443600623000010235751710011152242730044644436006230000055460016100110191184000777444360062300000564600161001114755826007294443600623000005546001610011147617130174644436006230000106160016100111484291001614444360062300001051600161501114842910002494443600623000004316001610011158451930053744436006230000055460016100111611628700317444360062300000472600161001115697338)
 (.leaf 359444360062300000472600161001115428588002934443600623000004726001610011157393030076844436006230000056460016100111573218101174444360062300000605600161001115863052005434443600623000005096001610011141048560147044436006230000065560016100111365555801821444360062300001087625151001115494237032744443600623000011836251510011138458060256444436006230000113262515100111425339903401444360062300001183625151001114566662035264443600623000011926251510011138392490296244436006230000076262515100111477920300668444360062300000564600161001101797365008714443600623000006556001610011147349870087144436006230000040760016100110168365400952444360062300000253600161501115224247))
 (.node 1 (.leaf 952444360062300000149600161501115909408001044443600623000001536001615011162106050010744436006230000012860016150110204824200000444360062300000464600161001102185625000004443600623000000756001615011147859430000044436006230000018460016150111598077000178444360062300000421600161001115741332009364443600623000005646001610011143629160131244436003100000056460016100111490285500452444360049300000296300001001113325568001734443600493000001813000010011133255680033044436006230000017230000150110060836900399444360062300000147300001501100608369005654443600493000003223000010011133255680039644436004930000026730000100111332556801475444360062300000500300001001113325568)
 (.leaf 1330444360062300000226300001001113325568022594443600486000000003000015011143114470225944436004860000000030000150111431144703610444360048600000000300001501100608369036104443600486000000003000015011134826720361044436004860000000030000150111348267203610444360048600000000300001501113482672033704443600486000000003000015011134826720294844436004860000000030000150111435047702948444360048600000000300001501113482672029484443600486000000003000015011134826720294844436004860000000030000150111348267202024444360048600000000300001501100608369017854443600486000000003000015011143114470178544436004860000000030000150111348267202024444360048600000000300001501113482672))))))
 (.node 16 (.node 8 (.node 4 (.node 2 (.node 1 (.leaf 1785444360048600000023300001501113482672005534443600486000000193000015011006083690055344436004860000002130000150111348267200639444360048600000021300001501113482672006394443600486000000253000015011143114470067444436004860000000030000150110060836900608444360048600000172300001501113325568006124443600493000002523000010011133255680047444436004930000014730000100111332556800433444360049300000207300001001113325568006444443600493000002523000010011133255680624844436000400000375465014100111332556806258444360017300003706550181001114765724069474443600028000044765501810011133255680647544436000690000400655018100111358255406273444360050500004476550181001114486786)
 (.leaf 5796444360050502273864550181001114472473062544443600104000039795501810011145410400353244436001130000224555018100111467001902864444360029300002119550180701101827790047044443600221000022455501807011156348910418544436005760000357555018070111552710404221444360034100003639550180701101573218046334443600689000045405501807011157758330580944436006890000387855018070110173160607289444360068900005069550180701115412863074604443600714000069275251910011142559170417744436006170000113652519070111381181302925444360061700001008525190701116495189032574443600617000010425251907011157951990334944436008360000107252519070111506756801710444360100000000602500200701114897172))
 (.node 1 (.leaf 1988444360084200000581525190701114763624025524443600558000009515251907011156414860339944436006170000145052519070111549584902137444360091100001317525190701114949458033774443600896000015284502210011144160130408844436008780000151845022070111501777904246444360087900001535450220701102457592036394443600870000014704502207011025043360330544436008700000147945022070110216948202759444360087100001490450220701102246063031184443600870000014174502207011020040550301244436009320000145345022070110205100203342444360090400001427450220701115913547038834443600870000014654502207011152132330394744436008700000146545022070111519383103795444360087800001501450220701115935628)
 (.leaf 3322444360095300001443450220701102597032033224443600870000014354502207011019774630294744436008700000143545022070111608764202947444360084200001435450220701116456339029474443600790000014534502207011163667180294744436008440000142745022070110205579502366444360084500001339450220701116343367023664443600845000014174502207011023537810236644436008240000095245022070110232826302366444360003200000345450220701102203337105923833600116000002184502210011020490130164344436000260000029645022100110149732301643444360002600000589450220701115891544016434443600026000006444502207011017481830164344436001860000074145022070110171165101643444360068200000916450220701101856502)))
 (.node 2 (.node 1 (.leaf 1643444360084500000850450220701101575501016434443600845000008314502207011157331410164344436000000000043645022070110167839801643444360001300000402450220701101643689024454443600017000004264502207011161407600244544436000170000039545022070110167028403181444360084500000886450220701116018495031814443600845000008984502207011019191551059241136008450000090843023070110213177405126444360084500000682350270701102131129051264443600000000009564502207011016759180512644436000080000036745022070110182944400568444360001400000367450220701115342608017834443600026000004704502207011017091710178344436005580000123045022070110202280901783444360000300001076450220701116089504)
 (.leaf 444360000900001010450220701101741470000004443600134000010104502207011014921240170744436000140000095645022070110192847401707444360002500000956450220701116069083017074443600064000010104502207011155809290170744436000260000098745022070111597942100000452360003200001038450220701115332223000004523600170000009014502207011158953170000045236000170000101045022070111511872000000452360001700001180450220701102233451000004523600019000011804502207011154683560267544436000170000101045022070110197250202675444360010000001180450220701101876612000004523600144000011994502207011018277610267544436003840000118045022070111591751602675444360060500001180450220701115236999))
 (.node 1 (.leaf 1372444360048600001300450220701102172369013724443600849000013794502207011153959670137244436008560000141745022070111568908101372444360085300001379450220701115780974013724443600848000014534502207011024652410121744436008580000147945022070110218450403651444360070400001528450221001114571174034844443600704000015104502210011146771040180444436008700000055745022070111581030000409444360062100000345450220701115200068018294443600549000005164502207011153908460129944436008700000133945022100111594969902304444360087000001321450220701116215078013454443600870000013394502210011148351240346844436008700000153545022100111375345903413444360079300001528450221001114713127)
 (.leaf 3924444360087000001559450221001114442278043634443600870000015514502207011152477820283544436008700000149045022100111401236002132444360087000001283450220701114040336011874443600686000009874502207011016039720050444436003220000060945022070111479599601016444360007200000901450220701114685218013714443600613000012174502207011144837080305244436008420000142745022070111512323401223444360087000000805450220701114986944017384443600870000008984502207011161659440235944436008700000103045022070111552579101417444360083500000898450220701114794920007104443600807000008504502210011153045180112044436008700000058345022100111570328501138444360084800001199450220701115371676))))
 (.node 4 (.node 2 (.node 1 (.leaf 294444360084800001354450220701115812467000004443600848000012174502207011019433610000044436008480000123045022070110206571400000444360084800001261450220701102071065000000003600848000012834502207011023192130000000036008480000121745022070110226611300083444360052800000527500200701115642205000004443600024000001775501810011160395780000044436000270000023855018070111592569800000444360021500000191525190701115151958001624443600273000001915251907011160426770006144436001760000019152519070111598501400061444360013600000191525190701115071796000614443600136000001755251907011151863860019644436001360000017552519070110212978800365444360005700000272550180701102001554)
 (.leaf 840444360035700000846525190701116031774025264443600540000014515002007011152664870459944436006340000397431029100111375910003810444360063400003974310291001114086032026454443600634000035983102910011153462390083844436008440000135239025100111594799700539444360084800001352390251001115727507008804443600848000013523902510011024664390242544436007790000138743023070110182185402326444360068600001321450220701102491211023264443600623000012834502207011024632270266244436006270000133945022070110215691302743444360063900001339450220701114851074019994443600623000014434502210011026592650169544436006230000135445022100111554132401670444360062300000831450221001102026153))
 (.node 1 (.leaf 1190444360062300000850450221001116189488011904443600623000008674502210011157175590102244436006230000085045022100111588614702429444360078900001037450221001115715376018164443600623000009784502210011159090410187244436006230000100945022100111496402001674444360062300000978450221001116330205020944443600623000010094502210011153159990210944436006230000100945022100111559550901758444360062300001030450221001102883688018644443600623000010454502210011026498400140044436006230000106545022100110199964601331444360062300001065450221001115926847023524443600623000010744502210011154713550278244436006230000108345022100111603198802812444360062300001092450221001115372673)
 (.leaf 3356444360062300001110450221001114389349034044443600623000011014502210011160564530296144436006230000106545022100111517322404099444360019800001128450221001114158668035304443600623000011104502210011139335240362344436006230000113445022100111464533902996444360062300001092450221001115515912024754443600623000010924502210011020725420276944436006230000108345022100111463236702402444360062300001074450221001115745758023944443600623000010454502210011143800690343344436006230000111045022100111364434103977444360020700001083300001001114211694026174443600623000010564502210011148376040078044436006230000065560016100110245834900523444360062300000554600161001115701423)))
 (.node 2 (.node 1 (.leaf 432444360062300000490600161001114784788019424443600237000007426001610011146706410291644436000260000108057517100111603815003423444360002600001108575171001115219722002954443600623000005396001610011021889140105744436006230000055460016100110223326502443444360062300001132625151001115088096024834443600623000011256251510011151515320368944436006230000119762515100111332556803387444360062300001189625151001113571688038874443600142000010946251510011140164750358744436006230000120662515100111420662803625444360062300001197625151001113665451017424443600623000006856251510011143045440087144436006230000065362515100110182296900952444360062300001051600161001102067120)
 (.leaf 1119444360062300001027600161001115891790011194443600623000008606001610011022526000000044436006230000069160016100110198977700000444360062300000174600161501114856672000004443600623000002866001615011163370950032444436006230000044060016100111455392800977444360062300000564600161001115933227014104443600623000006276001610011145809840042944436004930000026730000100111332556800526444360062300000345300001001113325568005294443600623000002523000010011133255680060944436006230000036730000100111332556801149444360062300000426300001001113325568043534443600493000007323000010011133255680136544436006230000046830000100111332556803370444360048600000000300001501113482672))
 (.node 1 (.leaf 2865444360048600000000300001501114390197029484443600486000000003000015011008466410294844436004860000000030000150110084664102024444360048600000000300001501100846641019634443600486000001713000015011143901970196344436004860000013930000150111348267201235444360048600000529300001501113482672016214443600486000003853000015011133255680086144436004860000011830000150111332556801579444360048600000029300001501113325568010524443600486000000203000015011133255680037644436004860000013730000150111332556800522444360048600000085300001501113325568008674443600486000003673000015011133255680070144436004860000035730000100111332556806545444360032800004305550181001114583023)
 (.leaf 7822444360002800005480650141001114633358096284443600028000064746501410011152222450649444436000280000370655018100111371629305885444360011300003706550180801115973533052614443600623000041645501808011157218480333744436002320000176955018100110194410703337444360002800001765550180701115923615026954443600072000017275751707011152052970269544436005170000283855018070110213013304704444360068900003665550180701102376273000004443600689000045815501807011020119820000044436006890000382955018070110192565900000444360068900005516550180801114522620000004443600689000058675501808011154758680634044436007990802565755018070111542831407172444360068900005478550180701116112158)))))
 (.node 8 (.node 4 (.node 2 (.node 1 (.leaf 7452444360069800005478550180701115889223075954443600704000055705501807011159111860744144436006980524534055018100110260510206134444360070400005340550180801116076106066634443600709000053405501810011155148550661344436007140000514452519100111457159607202444360071400005546525191001117364145042614443601086000042834502207011150169710434144436009110000402352519070111516352403147444360061700001852525190701114864841023364443600617000014765251907011149295850366444436006170000152852519100111466169703318444360108600001118450220701115504596023224443600024000009204752107011022128970297244436001830000098850020070111552600902250444360046700000991525190701102462882)
 (.leaf 2484444360108500001443450220701115072944028434443601096000014794502207011160070830405344436009850000140645022070111497190904683444360087700001559450220701114213364041394443600882000015474502207011148032010319144436008750000147945022070110236517103487444360087000001470450220701102463069037584443600897000015514502210011147074450302044436008700000139645022070111536437303212444360087000001417450220701115234212035714443600879000014534502207011146010730350544436008710000144345022070111631549303795444360087000001443450220701102489403038904443600870000014704502207011156270430332244436008750000146545022070110222084403322444360088200001465450220701116151699))
 (.node 1 (.leaf 3890444360088500001453450220701116554573029474443600870000014354502207011028704060294744436008620000147045022070111609357502947444360068600000481450220701102569443105923833600026000002184502210011018568950164344436000260000026745022100110182982901643444360002600000267450221001102023974016434443600026000002444502210011159141270164344436000250000034545022100110169118001643444360002100000296450220701114509077016434443600021000002964502207011157144220164344436000210000029645022070111482090201643444360002500000296450220701115814690016434443600026000002444502207011152053190164344436000260000040245022070110188601401643444360018300000886450220701102323158)
 (.leaf 1643444360013400000543450220701102099866024454443600558000005164502207011019010460478344436008450000045145022070111611253504783444360084500000451450220701115513864047834443600845000005164502207011152924640478344436008450000050045022070110196576504783444360084500000445430230701115796842031814443600845000004454302307011023220240318144436008450000077039025070110210600503181444360084500000729370260701114883453105924113600845000006413702607011018434261059241136008450000074633028070110190489005126444360084500000819350270701101945971051264443600845000012544302307011024089920512644436008320000145345022070110262181205126444360052800000714450220701102284531)))
 (.node 2 (.node 1 (.leaf 5126444360001700000401450220701102502055051264443600013000002614502207011155105250512644436000110000030345022100111601512801783444360002200000401450220701102213872017834443600617000012834502207011020045230000044436000210000107645022070110200055000000444360013400001010450220701101780773000004443600016000011154502207011149764710000045236000720000123045022070110213645800000452360000400001230450220701115914964000004523600018000012174502207011154547930000045236001570000119945022070111610480500000452360040000000774450220701102123376000004523600157000008984502207011020147650000045236001570000048145022070111547564500000452360043100000500450220701102509385)
 (.leaf 452360061700001339450220701116229482000004523600837000014354502207011023149110000045236004770000080545022070110207287201372444360047700000850450220701102265510013724443600845000014534502207011158941850121744436008450000147045022070110290425801396444360084600001470450220701102861298013964443600853000015354502207011158226700285244436007790000154245022070110221210700649444360079900000516450220701101895959021404443600862000003674502207011155842530086244436005490000034545022070111506898100862444360022100000395450220701115864753006494443600022000003454502207011019124790130244436002070000040245022070110237588700931444360019200000383450220701102098547))
 (.node 1 (.leaf 3917444360068600001510450220701102133656020164443600923000013004502207011149625110123844436010960000133945022070111663600501789444360013400001038450220701101977069015504443600134000010384502207011019795220155044436000570000101045022070110196200800500444360032200000367450220701101759213009614443600858000009784502207011142710680124344436008440000118045022070111512047202489444360087000001518450221001114816061002424443600848000006444502210011141623480027744436008480000064445022100111511997400569444360084800001230450220701115565295003974443600848000011994502207011154220300000044436008480000111545022070110241899600000444360084800001149450220701116110407)
 (.leaf 444360084800001149450220701115407000000004443600844000011244752107011158254630000044436007820000104947521070111506501400000444360078200001124475210701115960656000004443600704000010864752107011156618800000062636005280000113150020070110271062100000000360084800001261450220701102633261000000003600848000011994502207011159695590000044436008480000114945022070110250879800000444360052800001209500200701115727908000054443600192000012585251907011153043880001244436001130000121452519070111516849500012444360002400000346550180701102294474000124443600024000001775501810011029208810000144436000240000017755018100111618147600001444360002400000164550181001115299975))))
 (.node 4 (.node 2 (.node 1 (.leaf 488360002400000192550181001115562506000004883600024000001925501810011020773320023844436000240000023855018100111520315300000444360002400000272550181001103179096001964443600024000004135501807011159923420036544436000240000044355018070110237077800365444360002400000807550180701115235075014924443600024000005885501807011023423830149244436000240000121855018070111546841202493444360056700001743550180701114812010008804443600844000032623902507011024833240088044436007420000133043023070111589946700880444360069800000952450220701116210027024254443600623000014174502207011025921161059229536006230000145345022070110218442102326444360062300001379450220701103818252)
 (.leaf 7341444360062300001339450220701115667914026624443600623000014174502207011024880210266244436006230000089845022100110240379301670444360062300000936450221001115777068016704443600623000008984502210011029053130167044436006230000093645022100110249340501670444360062300000952450221001102735581011824443600623000008864502210011156660810194344436006230000097845022100111574297602102444360062300001037450221001116233527023754443600623000010304502210011152142750226644436006230000102545022100111459023102169444360062300001025450221001114951308025254443600623000010374502210011149089610257044436006230000105645022100111495635102064444360062300001009450221001114772065))
 (.node 1 (.leaf 2787444360062300001056450221001114844125026904443600623000010654502210011149753380243444436006230000105645022100111514939601712444360062300001045450221001115132014012224443600623000010304502210011155579560087744436006230000095245022100111600972601620444360062300001025450221001116100100022644443600623000010374502210011154820080138344436006230000095245022100111488666901528444360062300000936450221001114262818015204443600623000009364502210011156459890178844436006230000099245022100111528200701611444360062300000978450221001114810946012954443600623000009164502210011148672970135344436006230000093645022100111542674002273444360062300001025450221001115580530)
 (.leaf 2310444360062300001030450221001114750401027934443600623000010654502210011145927830255544436006230000104545022100111545653602818444360062300001074450221001116142451027154443600623000010564502210011146189390356944436002120000108345022100111508633802968444360062300001065450221001115139004032934443600623000010924502210011140009270384144436006230000113445022100111393256203742444360062300001134450221001114624623033164443600623000011014502210011160129460323144436006230000110145022100111521189302231444360062300001045450221001115663001023574443600623000010654502210011150882390203144436006230000108345022100111541180001940444360062300001074450221001115071258)))
 (.node 2 (.node 1 (.leaf 2813444360062300001074450221001114589743028314443600623000010564502210011156931870400044436006230000114645022100111517003303049444360062300001083450221001114785622012024443600623000005796001610011022466960067844436006230000058960016100110306428602559444360002600001089575171001102314696027774443600026000010715751710011145513030055044436003030000046460016100111540631400329444360062300000464600161001115108190003374443600623000005246001610011024650570085044436006230000055460016100110243312603016444360062300001176625151001114827114035754443600623000011926251510011133255680367444436006230000119762515100111332556804169444360013500001141625151001114078845)
 (.leaf 3403444360062300001197625151001114731127036174443600623000011976251510011140356510382044436006230000119660016100111388325301895444360062300001069600161001102204994017034443600623000010276001610011150652370111944436006230000099060016100110201681801119444360062300000948600161001102307504001574443600623000008416001610011029807490085644436004930000070730000100111332556804529444360062300000761300001001113325568040904443600623000007133000010011133255680428144436006230000073230000100111332556803319444360062300000645300001001113325568023984443600486000000003000015011010841260361044436004860000000030000150110108412603370444360048600000000300001501113482672))
 (.node 1 (.leaf 3218444360048600000000300001501113482672032184443600486000000003000015011144305900294844436004860000000030000150110108412602948444360048600000000300001501101084126029484443600486000000003000015011143901970294844436004860000000030000150111348267202293444360048600000394300001501101084126020244443600486000009763000015011010841260138544436004860000113730000150111348267201117444360048600000945300001501113482672027444443600331000014033000015011133255680191044436004930000024930000150111332556801161444360049300000118300001501113325568021064443600493000001393000015011133255680127744436004930000012130000150111332556807421444360068900005393525191001114310601)
 (.leaf 6033444360068900004293525191001114813210061084443600664000044765501810011140634600547544436006230000336055018100111482206605110444360068900003694525190801115102860056144443600689022046305251908011159877010488344436006890000347752519080111590004704648444360022100002683550181001102543957034114443600028000020935501807011154639450341144436000280000149355018070111614265103411444360002800001456550180701102486260105920443600028000017885751707011160728521059204436000280000286860016070110198672204704444360071400004537575170701116084581047044443600689000046375501807011154357850161644436006890000458155018070111599156201616444360068900004637550180701114796004)))))))))
 (.node 128 (.node 64 (.node 32 (.node 16 (.node 8 (.node 4 (.node 2 (.node 1 (.leaf 444360068900004637550180701102123730000004443600689000038265501808011021610610650144436005400000567257517070110233209707349444360068900005730550180701117118677073494443600698000057305501810011167501250633644436007140000526052519100110270567706585444360071400005197525191001115339697050154443600714000047855251901011178905430396044436006170000326152519100111574335503677444360062300003150525191001114531771040154443600617000032945251910011145251390409344436006170000421152519100111512276204563444360061700004392525191001113752579049014443601086000044424502207011162746310397644436010860000434145022070111607875104348444360107200004394475210701115078598)
 (.leaf 4593444360108600004396450220701114822989021644443600998000015375002010011151574380109944436010150000150047521100111513254501227444360104200001500475211001115005481045284443600617000015745251910011134377390365644436010860000152445022070111420073702944444360108600001470450220701115677251018174443601086000015424502210011148456600339844436010520000150947521070111513645803119444360097800001488500200701115725121031614443601016000015254752107011156933930338144436010860000152445022070111457755903365444360108600001510450220701115589903028874443601086000014704502207011157269340320244436010860000150145022070111654070602941444360071400001051600160701102426904))
 (.node 1 (.leaf 2941444360066900000986575170701102135044022504443600664000009395501807011022481330219144436009490000097845022070111530883402198444360101100001009450220701116234855022624443601054000006454502207011159761710118644436010960000152445022100111404285902751444360087000001435450220701102416608017514443600882000014434502210011164271250312744436009590000144345022070111610113603525444360087700001443450220701116274175039524443600896000015014502207011156931570367644436008880000146545022070111531918403698444360087800001465450220701115728997039754443600871000014904502207011156113730340644436008720000142745022070110291260003795444360087100001470450220701116433572)
 (.leaf 2947444360087700001396450220701102996069029474443600845000014174502207011165907100294744436008970000142745022070110236283902947444360083200001453450220701115601193029474443600136000006444502207011024496341059238336008970000091645022070110262442910592383360001900000218450221001102407094000004443600009000002184502210011018401020000044436000200000018145022070111582777201643444360002600000199450221001102055776016434443600020000002964502207011148686550164344436000130000034545022070110483416001643444360001100000741450220701102454873016434443600000000008864502207011024374840164344436008450000098943023070110275294004783444360084500000881370260701102935687)))
 (.node 2 (.node 1 (.leaf 4783444360084500000975410240701102273154047834443600845000009524502207011023373070478344436008450000077445022070110227233104783444360084500000726410240701115291027031814443600845000006123702607011024417830000044436008450000064137026070111596259600000444360084500000729370260701115907878105924113600845000007703902507011024064650512644436008450000074633028070110240703605126444360084500001261450220701103121265051264443600007000001554502210011024399940000045736000150000019945022100110295021300238444360001800000987450220701102440550000004443600528000010764502207011019180050000044436000010000107645022070110241553300000452360000400001149450220701102497764)
 (.leaf 452360001900000956450220701102508652000004523600782000013794502207011029001310000045236003070000142745022070110286449001372444360084500001396450220701102864373013724443600845000014904502207011021139580000035536008450000141745022070111592582400000355360084500001465450220701103031668000003553600845000013103502707011026083300121744436008450000126533028070110278153901217444360084500001402430230701103226770013964443600845000012693502707011163150670000057936008240000135839025070110252806500649444360063400000402450220701102357792006494443600307000003834502207011020403100064944436000260000036745022070110232931000931444360002600000322450220701115226249))
 (.node 1 (.leaf 931444360019200000956450220701102130099009314443600057000011154502207011022754130165344436008490000123045022070111499680502211444360095100001379450220701115127748006664443600026000002964502207011157028160066644436000260000085745022070110217570400843444360028300000901450220701115998032008434443600247000008574502207011152162170069244436003840000098745022070111501727001121444360022100000157450220701115899031011934443600357000002444502207011027932390343144436009570000151845022070111454236000605444360084800001037450221001114122121002084443600848000011994502207011030859060078744436008480000119945022070111591632300102444360071900000688475210701115091957)
 (.leaf 102444360023200000586525190701115974845000864443600136000004395251907011153432960008644436001130000058652519070111554260900086444360002400000533550180701116153701000864443600024000005715501807011160609330008644436000240000041355018070111626778300086444360048600001209500200701102769805000864443600136000007335251907011025860710000062636001360000070652519070111589985800000626360013600000566525190701102522370000006263600157000004395251907011154378320000062636002150000037752519070111607537500000626360013600000343525190701115152707000006263600136000003435251907011153902390000044436000270000041355018070111598284100000487360002400000413550180701115227830))))
 (.node 4 (.node 2 (.node 1 (.leaf 444360002400000487550180701102482823000004443600024000002725501807011161137180001144436000240000020655018070110289801700012444360002400000206550181001115806806000124443600024000002725501810011148268130000048836000240000027255018100111511647100000488360002400000346550181001115044062000004883600113000004835251907011160105890000048836003490000031352519070111538525900000488360058500000375500200701102937592002384443600848000005184502207011163172310023844436008440000059547521070110265521600000444360078200000473475210701102307700000004443600848000007144502207011159616370000044436007990000072247521070110202082200000444360052800001295500200701102514628)
 (.leaf 1456444360078200001208600160701115480685000004443600164000009386001607011163434520188444436000260000088057517070111588073901884444360002600001013575170701115233626013354443600069000024485751707011027150470193444436006340000427343023070110178951500880444360062300002018450220701103169456008804443600623000009524502207011162582440242544436006230000088645022070110273037810592295360062300000850450220701102663873073414443600623000009524502207011024613390266244436006230000097845022070111611616601670444360062300000978450220701116316809016704443600623000009524502210011029948420082944436006230000101745022100111555299402376444360062300000898450221001103078361))
 (.node 1 (.leaf 2376444360062300001030450221001115795772020264443600623000010454502210011155007840208244436006230000103045022100111498305401925444360062300001017450221001103211387025184443600623000010374502210011153658630258044436006230000106545022100111496165602481444360044500000964450221001115046485013004443600284000006294502210011153938120133344436002400000060945022100111572558602928444360024100000872450221001115763474024284443600623000006394502210011135536720217744436006230000062945022100111432286901517444360062300000608450221001115373350011604443600623000005574502210011153261400089444436006230000060157517100111571753602354444360062300000719600161001115251682)
 (.leaf 2592444360025400000909600161001115278462033324443600623000011014502210011148091720186944436006230000102545022100111581172001449444360062300001025450221001116264643025274443600623000010564502210011160469390277844436006230000106545022100111498299502920444360062300001140600161001116112093021154443600623000007036001610011140783630183544436006230000071255018100110264662101202444360062300000687575171001102629666012024443600623000005546001610011026613530067844436006230000055460016100111623041002997444360003300001107600161001102505782026354443600141000009235751710011145914940283644436003040000092160016100111590518900136444360062300000464600161001102819490)))
 (.node 2 (.node 1 (.leaf 546444360062300000524600161001102568892013664443600181000009156251510011149262570386044436006230000120162515100111361772803598444360062300001192625151001113593380035334443600623000011896251510011142019500345544436006230000118962515100111411665003673444360062300001206625151001113780855038224443600623000012066251510011139047040422644436002040000119660016100111394850003748444360062300001189600161001113832204038934443600623000012006001610011145417850111944436006230000087760016100111546584701119444360062300001079600161001102295263014574443600623000011266001610011147049710145744436006230000114060016100111573579700285444360062300000928600161001115898995)
 (.leaf 109444360062300000841600161001116249795000004443600623000005416001610011027283690000044436006230000041960016150111483901000164444360062300000397600161001114894323050484443600493000024023000010011133255680491044436006230000214830000100111332556802735444360062300000529300000701113325568040584443600623000006583000007011133255680249744436006230000029530000100110132080802846444360062300000046300001501113482672028464443600486000000003000015011134826720284644436004860000000030000150111348267202398444360048600000000300001501113482672023984443600486000000003000015011013208080361044436004860000000030000150111348267203610444360048600000000300001501101320808))
 (.node 1 (.leaf 3370444360048600000000300001501113482672033704443600486000000003000015011134826720315244436004860000000030000150110132080803152444360048600000000300001501114471638029484443600486000000003000015011144305900247044436004860000000030000150110132080802049444360048600000271300001501101320808016244443600144000012913000015011133255680188644436001360000145730000150111332556802833444360000600001799300001001113325568019524443600145000016063000015011133255680627444436000400000375465014100111593888206953444360002800004718650141001118224991062934443600689000046305251910011148491810646444436006890000471552519100111416367305752444360068900003852525191001114047605)
 (.leaf 5552444360058500004164550180801113426433056514443600341000047696001601011148328450438044436001040000227655018100110241859810592044360003300001620550181001102351208105920443600991000048715251908011154691470000044436009760000612052519080110238124110592420360068900003347550180801102628572105924443600862000031765501808011160733261059244436006210000319460016080110242140410592444360034900005210600160801115344227105924443600467000052735751708011159227880633144436004420000502460016080110303089206501444360048600005432575170801103042896000004443600576000055885751707011023741620000044436007140000532955018070110222436006336444360071400005171550180701116090790)))))
 (.node 8 (.node 4 (.node 2 (.node 1 (.leaf 6590444360071400004723550180701102296628074184443600714000056425251907011027449620771444436007140000548752519070111589780106706444360071400005275525191001115408861033604443600617000030445251910011150026130243944436006560000398752519070110244969100003444360070400003562525190701115164173000544443600872000043055501807011147475350236144436009300000433852519070111493910603004444360094200004257300000801117632103014584443601065000018464752107011147532790066144436009670000146350020070111526570001092444360107900001433475210701115460140028164443601086000014654502207011152655850311744436010050000141243023070111586484604218444360097700002394430230701114588638)
 (.leaf 3427444360093300001410500200701103160483034174443600898000014505251907011027231630355344436010350000142647521070111611670502871444360084200001394525190701103008672033114443600986000014775002007011027520360294144436009070000146252519070110289047002941444360063400001425550180701102695408022504443600656000014755751707011026324130225044436006860000080545022070110259322702250444360054900000367450220701115927616015804443600357000006444502207011028175430200244436008700000141745022070110320930103191444360087000001435450220701103438195027514443600870000014354502207011161786480296544436008770000142745022070110349257902654444360090400001479450221001118423285))
 (.node 1 (.leaf 3054444360087000001396450220701114201354034544443600870000014704502207011024441410406244436008750000147945022070110298507704206444360087000001518450220701115032015042194443600870000015014502207011027772570389044436008750000146545022070110315577303890444360088200001427450220701115662043029474443600877000013964502207011027250080294744436008970000231945022070110270234002947444360087900002857450220701103322946000005053600014000002964502207011022107380000044436000090000026745022070110217759900000444360001600000296450220701102287731000004443600025000003224502207011147860450000044436000260000034545022070111501809001643444360002600000322450220701102231922)
 (.leaf 1643444360000000000357450220701102007636016434443600000000002964502207011022992990164344436007660000128345022070110331972001643444360084500000886450220701102944329016434443600845000009364502207011024599750164344436008450000079435027070111609128604783444360084500000746330280701103004533000004443600845000006594102407011146177020000044436008450000059839025070110242668400000444360084500000650350270701102503601051264443600845000008273902508011026699490512644436008450000071639025070111592544005126444360000700001283450220701102724483051264443600026000001724502210011026925280023844436000260000030345022100110285998400000457360001600000367450220701102920654)))
 (.node 2 (.node 1 (.leaf 238444360001400001038450220701102447731000004443600686000010104502207011025492540000044436001570000085745022070111516910300000444360001900000956450220701114968595000004523600025000001154502207011025392930000045236000090000070745022070110286831100000452360002200000181450220701102669994000004523600026000005894502207011151253190000045236001980000047045022070110302879300000452360019800001115450220701102771964000004523600273000004514502207011152511290000049136008450000149045022070110259906101217444360084500001435450220701103007760000005793600837000014434502207011031718400000057936008350000137945022070110301628100000579360081900001379450220701102748922)
 (.leaf 649444360068600001417450220701115942298006494443600837000014654502207011031133470000044436000130000029645022070110272772300000444360001300000218450220701114815843000004443600021000003224502207011026212060093144436000250000026745022070110267219800931444360002600000244450220701102380927011104443600157000010104502207011025113730108144436005760000029645022070110236704800786444360005700000296450220701115031005010814443600026000002674502207011159027140066644436000260000015745022100110271371000078444360002600000296450220701103031343000005963600431000009014502207011029255010156644436008710000133945022070110381111702196444360084800000898450220701114578846))
 (.node 1 (.leaf 102444360079900000871475210701102651262000006263600057000002515501807011150270990008644436003840000022250020070111604365100086444360063900000374500200701115701349000864443600024000002065501807011027698090000062636000240000017755018070111590122900000487360002400000206550180701116003509000004873600024000002385501807011150089200000048736000240000027255018070110291530600000487360019200000233525190701115334025000004873600057000002385501807011158908550000048736000690000023855018070111511774700000487360013600000204525190701115876030000004873600307000002695251907011031378680000048836005580000011950020070110263927200000488360084800000432450220701103337096)
 (.leaf 238444360084800000644450220701115914068002384443600848000003954502207011150698510023844436008480000039545022070110288429300000444360084800000644450220701102851502000004443600848000003674502207011148172780000044436008420000043645022070111520034000000444360083700000916450220701102235786000004443600766000012475501807011028604090000044436002930000063655018070110317928901335444360006000000525600160701103736490019344443600623000009924502207011027225000000044436006230000091645022070110280908410592295360062300000831450220701103470084105922953600623000010174502207011150384141059229536006230000128345022070110358809507341444360062300001092450220701102375260))))
 (.node 4 (.node 2 (.node 1 (.leaf 7341444360062300001134450220701102356940073414443600623000015244502207011025968390266244436006230000101745022070110301827700000521360062300001017450220701116271504000005213600623000010374502207011166273240237644436006230000063945022070110339633202376444360062300000594450220701116251127023764443600623000009164502207011032757450229444436006230000100760016070111587370301564444360062300000564600160701114903740010684443600623000005096001607011157043410041944436006230000049060016100111499708500959444360062300000509600160701115867447009204443600623000005546001607011155975110052544436006230000052460016100111601489601318444360062300000554600160701115383995)
 (.leaf 655444360062300000524600161001114409403005594443600623000008416001610011143062080017444436006230000055460016100110351927501491444360062300000665600160701103173678028224443600623000006794502210011147476070219544436006230000105645022100110297127602043444360062300000694600161001115496574016304443600623000006866001610011161559850159244436006230000066560016100111568888901835444360062300000627600161001115567125012024443600623000005796001610011030584570123144436006230000060560016100110276240401231444360062300000655600161001116156730007734443600623000005646001610011028573220262044436006230000112660016100111611615700499444360062300000524600161001103505886))
 (.node 1 (.leaf 546444360062300000554600161001103022048005894443600623000005396001610011156259490058944436006230000055460016100111550844000546444360062300000915625151001115292546008014443600623000009546251510011035637370362244436006230000119262515100110224407203712444360062300001201625151001114422085038594443600623000012066251510011022238760429444436001800000120662515100111409409204231444360062300001191600160701114173663043934443600623000012006001607011139976830111944436006230000067660016100110312298201457444360062300000694600161001115169955014574443600623000007326001610011027206300145744436006230000049060016150110396187200000444360062300000263600161501103228943)
 (.leaf 444360062300000230600161501114573680000684443600623000003726001610011144114180004544436006230000036160016100111482834005275444360062300002890300001001113325568040414443600623000027313000010011133255680382144436006230000269030000070111332556802703444360062300001761300000701113325568013804443600623000005003000007011133255680237444436006230000052930000070111332556803610444360048600000000300001501113482672036104443600486000000003000015011015566660337044436004860000000030000150111348267203152444360048600000000300001501101556666024704443600486000000003000015011015566660241444436000060000057530000150111348267202302444360000600000976300001501113325568)))
 (.node 2 (.node 1 (.leaf 3223444360009200001515300001501113325568029304443600182000017453000015011133255680630644436000280000375465014100111332556806021444360002800003209650141001114488014071794443600028000049766501410011144349920572744436005280000331957517100110248569605291444360011600003094550181001114602115000004443600028000019425501807011027341511059204436008280000577962515080110334532910592044360096100003157525190801103300856016164443601096000062275251908011159819751059242036010300000600152519080110262135310592420360101800006300525190801115871618105924203601011000062645251908011158516841059242036009910000585552519080111562153610592420360099100004785525190801102804255)
 (.leaf 10592444360035700004154625150801115385704105924443600423000056166001608011157465310633144436003840000537760016080110293423806331444360011604904194625150801102547033058234443600170000053206251508011029052190000044436007140000572555018070110276711003154444360086500005354550180701116472015066594443600836000052365501807011028870840602044436010130000501150020070110281324306050444360095100004684525190701115572292052474443600714000042755251910011143319390698444436008060000649652519070111520949504939444360082400007792525190701115772687024824443600967000069885002007011032189460414044436006170000503052519070111509846703287444360084200003795525190701115511406))
 (.node 1 (.leaf 3886444360108600003494450220701115172143067554443600714000062336001607011133255680628044436006820000595657517070111473456005710444360084400005279550180701115586470052664443600949000050095002007011147986790414644436009980000328650020070110301559500000444360102200001970475210701116141803022824443601062000014264752107011160076530481644436010410000450147521070110344063603427444360099700003447500200701114996089000004443600982000027115002007011031427430341744436010090000237247521070111526349703417444360094600002371500200701102732480035534443600771000019895251907011153144880355344436006430000146857517070110272231703311444360066900001468575170701102926727)
 (.leaf 10592444360070900001027600160701115282971029414443600656000010525751707011154340440439744436006210000142055018070111585742304397444360061717202328525190701103042101043974443600026000003364502207011029013250302744436000320000019945022070110321614302002444360085800000999475210701116647224020024443600882000010454502207011158710200302744436008880000147045022070111631241503027444360087800001501450220701103539254035204443600870000014794502207011167008440352044436008710000146545022070111610421603498444360087500001470450220701116186302037684443600879000014534502207011030272840412444436009040000151845022070111400714203665444360087100001490450220701103342177))))))
 (.node 16 (.node 8 (.node 4 (.node 2 (.node 1 (.leaf 4062444360087500001518450220701116139153040624443600875000015104502207011034492050382344436008440000145345022070110351980003890444360085300001453450220701116430502038904443600865000014794502207011162843100389044436008670000143545022070110351037203823444360087500001443450220701103345788029474443600870000014534502207011034640610294744436008720000427045022070110279844602947444360084800004270450220701103385586029474443600837000010304502207011031888860294744436008450000103045022070110266476702947444360000900000395450220701102803473000004443600018000002184502207011026819670000044436000200000026745022070111586359900000444360002600000322450220701102517859)
 (.leaf 444360000600000345450220701114595657000004443600018000004024502207011024757780164344436000220000036745022070110240020201643444360000000000383450220701114933129016434443600028000004364502207011161955780164344436008650000041645022070110342240801643444360084500001264410240701102869085016434443600742000012834502207011027161220164344436008450000093541024070111498922204783444360084500000801330280701103026295047834443600845000007524102407011027952720478344436008450000071445022070110255055800000444360084500000556350270701102787484051264443600845000007524102407011160119400512644436008450000078337026070110254804405126444360002500000172450221001103043251))
 (.node 1 (.leaf 238444360002600000261450220701103236792002384443600000000011494502207011026299220000044436000570000050145022070110296000900000444360001700000609450220701115651111000004523600025000003454502207011035374750000045236000160000101045022070110286632700000491360001300000383450220701116057928000004443600134000007414502207011029234460000049136008450000135445022070110307739000000444360084500001490450220701115333396000004913600845000015184502207011161613970000049136008450000146545022070110298421400000579360084500001427450220701103270273000005793600104000005004502207011155100380000057936000070000043645022070111540416700000579360030700000436450220701102806279)
 (.leaf 579360000700000357450220701102970693000005793600004000003574502207011153760300064944436003070000042645022070111625612100649444360081900000543450220701102876090000004443600026000004264502207011030867270064944436000110000039545022070111621074800000444360001600000395450220701115387183009314443600021000002184502207011150768150093144436000260000024445022070111593357901110444360002600000244450220701102903885011104443600157000003574502207011157144060108144436008700000042645022070111559024001081444360071900000383450220701115604451007864443600322000003574502207011027368640078644436000260000026745022070110289966900786444360002600000267450221001116233248)))
 (.node 2 (.node 1 (.leaf 1081444360002600000199450221001116056869000744443600026000001994502210011028577560000059636001760000090145022070110334120300000596360021500001010450220701103564306012484443601069000015184502210011147471750309944436008700000111045022100111504851001181444360084800001017450220701115257177003044443600848000013394502207011157145090008644436006230000198450020070110308025600347444360063900002271500200701103269011003474443600771000005824752107011162888700000062636006230000032950020070110312367200000626360058500000246500200701115029486000006263600486000001635002007011150434140000062636004860000011950020070111588601000000626360048600000108500200701115529592)
 (.leaf 626360048600000162500200701115130076000006263600528000002035002007011159688580000048736008240000050347521070110324768700000487360084500001309450220701103293105002384443600832000016154502208011152595530023844436008320000318645022080111431846900238444360082400004083450220801115178334002384443600824000028874502208011147443630000044436007790000128052519080110306148500000444360061700001299625150701114347073000004443600617000011706251508011031861410000044436001700000093157517070110328970800000493360052800001102625150701103662065025514443600871000010744502207011153320601059229536009490000084343023070111507041800000444360094900000942430230701115705377))
 (.node 1 (.leaf 444360094900000985430230701115863885000004443600949000013874302307011145339371059229536009490000122843023070111595519610592295360087100001245450220701116323804073414443600888000014354502207011026227760734144436006230000143545022090111537142107341444360062300001524450220701103028403026624443600623000014354502207011147553350000052136006230000137945022070111554777900000521360062300001427450220701115064022000005213600949000010124302307011150390820000052136010040000096543023070110308188600000521360074200000898450220701103120760000004443600623000008054502207011031060260000044436006230000097460016070110333802501849444360062300000974600160701115961781)
 (.leaf 1687444360062300001007600160701115527646008324443600623000009746001610011155096980081144436006230000055460016100111635298801276444360062300000579600160701103598470012074443600623000008776001607011147700430042444436006230000078860016100111391363802007444360062300000676600160701115429895021484443600623000007266001607011158465010279444436006230000071060016070111514865802391444360062300000703600160701115723151021574443600623000006866001607011152866160234444436006230000071157517100111532774902377444360062300000720575171001115248211017394443600623000007196001610011151100650000046036006230000060560016100110336194700000460360062300000579600161001116485153))))
 (.node 4 (.node 2 (.node 1 (.leaf 1231444360062300000710600161001102788045012314443600623000005546001610011028694740123144436006230000056460016100111517544000566444360062300000539600161001103068859007354443600623000004726001610011039274710058944436006230000050960016100110325773901480444360062300000948600161001115025176009334443600623000009746001610011033280820417244436001100000119262515100111422970403521444360062300001192625151001114242128039804443600623000012066251510011149809050397444436006230000120662515100111453937703996444360062300001206625151001115509883034264443600623000011766251510011026064500145744436006230000074760016100111548101501457444360062300000703600161001103192137)
 (.leaf 1457444360062300000605600161001115046248014574443600623000006656001610011030197760037044436006230000058960016100110323890400370444360062300000122600161501102985957000004443600623000000176001615011148317930036144436003070000000000003150111594947300000444360062300000034600161501103054126000004443600623000002086001610011152245290012044436006230000058060016100111440302300235444360062300000621600161001114555139004384443600623000007266001610011154469850343844436006230000236930000100111332556802167444360062300002109300001001113325568026604443600623000022473000010011133255680306744436006230000226230000070111332556801732444360062300001046300000701113325568))
 (.node 1 (.leaf 334444360062300000481300000701113325568029864443600623000001543000015011134826720361044436004860000000030000150111348267203610444360048600000000300001501101791684029714443600486000000003000015011134826720337044436004860000000030000150110179168403218444360048600000000300001501114555631018624443600486000000003000015011134826720186244436004860000000030000150111455563101415444360048600000000300001501113482672025464443600006000002813000015011134826720277544436000060000024930000150111348267202470444360000600000363300001501101791684042864443600006000020183000015011133255680575944436000560000314065014100111452678505390444360010200003077650141001114666941)
 (.leaf 6690444360014402104703625151001113956906048664443600334000030095501807011033020310000049436000280000246455018100111610619100000494360002800001218550181001102942136000004943600033000032435751707011159552850000044436006010000441360016080110301238600000587360108200005923525190801116177421105923253601063000060015251908011158352971059232536008980000626155018080111568050610592420360018300004855625150801102986490062684443600689000054115501808011161124340633144436001480000522962515080111619111206331444360007200004976650140801103358033062604443600431000056976001608011031210890582344436006890000617055018080110332680005149444360068900006020550180801103442969)))
 (.node 2 (.node 1 (.leaf 3154444360110100006171475210701103306541070124443600617000076845251907011147839960474944436006690000779252519070111568853401538444360104800006887475210701115305549000004443601086000045894502208011148710970506744436006690000383357517070110382780504368444360062300001868550180701103242285000004443600943000060265501807011033153690000044436009660000845047521070110308846004816444360093700007715500200701114913291048164443600920000076275002007011159028630355344436008790000749052519070111608591303553444360102200007457475210701103510544035534443600709000069785501807011037293740355344436006560000612657517070111510762403553444360062100003385550180701103304474)
 (.leaf 10592444360063400004913550180701115247891043974443600643000033995751707011157291120439744436000260000083745022070110311546810592444360005700000244450220701115199446030274443600400000002184502207011159849190302744436008350000039545022070110297715803027444360086500001489475210701103794316034474443600872000014784752107011159221600314844436009950000145345022070111510499803761444360087000001465450220701116338002042174443600870000015104502207011032751950382344436008620000146947521070110363125503823444360084500002649450220701103954638029474443600885000034204502207011152484970294744436008480000430845022070110365203010592444360084500004283450220701103766714))
 (.node 1 (.leaf 444360082500002497450220701103272831000004443600845000008314502207011035914860000044436000040000029645022070111569757300000490360002400000296450220701102829160004204443600018000004264502207011158194730042044436000130000039545022070110252349801643444360001600000345450220701102648907016434443600349000012834502207011030269460164344436000000000089845022070110376862404783444360081900000650350270701103114559047834443600845000005483302807011029149720000044436008450000057933028070110284671005126444360084500000611330280701103112853051264443600845000009784502207011030810710512644436008450000091645022070111540641305126444360084500001150350270701116421367)
 (.leaf 5126444360084500001264410240801103276228051264443600011000001554502210011033571110023844436000260000033645022070110339111610592343360000000001115450220701102829738000004443600656000011494502207011159432420000044436000200000022945022070110350393600000452360002200000261450220701116213545000004523600007000006144502207011034654370000045236000100000123045022070110324922100000452360034900000707450220701115632954000004523600226000009014502207011153735800000045236005920000107645022070111647210100000452360062700001283450220701116537007000004523600845000015014502207011157262680000045236000690000118045022070110324835900000444360015700000357450220701102876503)))))
 (.node 8 (.node 4 (.node 2 (.node 1 (.leaf 579360068200000805450220701115973771000005793600183000004814502207011033285840474744436000000000039545022070110281455100000579360002800000367450220701103186816000005793600004000003674502207011030560990000044436000040000036745022070110332753500000444360014400000395450220701102932711000004443600009000003954502207011035734980000044436000250000038345022070110320211100000444360002600000345450220701115375724000004443600024000003224502207011161559810000044436000180000032245022070110332347900000444360002600000357450220701103198588010814443600032000003224502207011152673230078644436000570000036745022070110313237800786444360002600000357450220701103502072)
 (.leaf 786444360002600000244450220701103471495007864443600026000002184502207011153398560079544436000260000019945022070111639767700795444360002600000199450220701115663826007954443600026000002444502207011034238530107744436002260000095645022070111522092300000596360022100000395450220701103683174008704443600057000005584502207011160366620156644436001920000055845022070111572442601244444360051700000322450220701116464519012444443600576000003834502207011162180510099844436002830000090145022070110321491101628444360079000001149450220701103692337029774443600870000014794502210011142735460233244436008700000091645022070111549692001324444360087000000898450220701115816165))
 (.node 1 (.leaf 910444360085600000867450220701114969851017054443600621000008054502207011147994000130844436005580000064445022070111510792004423444360084300001633450220701115034918043874443600869000017234502207011150549330397244436008070000154245022100111694040303241444360080700001528450220701115350470007854443600807000028954502208011154539040078544436008070000291845022070111633904800785444360080700002857450220701103343515000006263600807000034084502207011149918350000062636008450000377145022080110355175700238444360080700001839450220701103332168002384443600807000019364502208011030580520023844436008190000131350020080110338775300000444360083200001437600160701103467837)
 (.leaf 444360061700001320625150801103297537000004443600698000014585751708011028529260000044436005850000087357517070111618335500000493360003300000759600160701103276951000005023601122000014314102407011034264930000050236011410000137339025070110340316000000444360114100001385390250701114924951000004443601141000013953902507011158516160000044436011410000134439025070110357505800000444360114100000934390250701103304122000004443601141000009793902509011031899160734144436011410000097939025090111542752700000444360113700000963390250901114746083073414443601087000014834102409011026749700734144436009810000149843023070111486365600000521360094000001517430230701114846631)))
 (.node 2 (.node 1 (.leaf 521360087100001465450220701114642986073414443600933000014274502207011159058950000052136009290000144345022070111467833000000521360095700001466430230701115201635000005213601141000009633902507011141141760000052136009290000107252519070110320361200000444360066900001106625150701115050277008114443600623000011476001607011031204270000044436006230000069460016100111572057900942444360062300000732600161001103426093018554443600623000010616001607011033205180200744436006230000114060016070110318705400000543360062300000756600160701103109305000005433600623000007636001607011150350950266944436006230000078760016070111581294902711444360062300000787600160701114486121)
 (.leaf 2447444360062300000771600160701115294004024134443600623000007716001607011150937800192844436006230000076360016100111526610802025444360062300000763600161001115922969020254443600623000007476001610011155057050158344436006230000074760016100111584571601151444360062300000732600161001115753737021954443600623000007326001610011161158610199244436006230000075660016100111572438901992444360062300000739600161001103085251013044443600623000006946001610011152235040130444436006230000070360016100111601722401304444360062300000747600161001115050155000004603600623000007476001610011033190790123144436006230000071060016100111474328901231444360062300000710600161001115854073))
 (.node 1 (.leaf 1581444360062300000710600161001103205369005664443600623000006276001610011163077720154044436006230000068660016100110333987200735444360062300000694600161001116213745013914443600623000006766001610011145662300096444436006230000062760016100111572110701254444360062300000647600161001114881341013064443600623000006476001610011147030810157344436006230000065560016100111468929601457444360062300000686600161001103490467006484443600623000005796001610011163264840064844436006230000055460016100111578545800030444360062300000421600161001104073654000304443600623000001326001615011040018660000044436006230000012260016150111534092600000444360062300000196600161501115110965)
 (.leaf 444360062300000278600161501103466446000004443600623000002786001610011149475040000044436006230000038860016100111488486600000444360062300000247600161501115837692000004443600623000004196001615011145646780002444436006230000031460016100111601293004556444360062300002750300001001113325568033784443600623000023693000010011133255680243744436006230000215230000100111332556804409444360062300002690300000701113325568029694443600623000022543000010011133255680139444436006230000056730000100111332556802986444360062300000608300001001113482672036104443600486000000003000015011134826720297144436004860000000030000150110202584303370444360048600000000300001501102025843))))
 (.node 4 (.node 2 (.node 1 (.leaf 2865444360048600000000300001501102025843032184443600486000000003000015011145985390081044436004860000077330000150111348267202477444360000600000575300001501113482672032814443600006000013413000015011133255680636944436000060000283545022100111471051806323444360002800004718650140101115147405048714443600215000031895751710011032593880458944436001480000323055018100111611115904866444360002800002025550181001104052943105922993600028000019375501807011159896421059237036000280000287655018070110306490700000444360081900006040625150801103452910000005873600819000060136251508011159424710000058736009190000573055018080110327680810592325360103000006001525190801116450855)
 (.leaf 10592420360102400005777525190801103504355105924203600998000058555251908011157803781059242036009040000574657517080111637008706268444360034100005525600160801104206334073764443600442000059876001608011149324450636444436006980000632555018080111577729705896444360071400006325550180801103539904051494443601101000060294752107011033991960558844436010380000590050020070110387350005588444360093600005138525190701115353318031544443600714000047605501807011032925500719544436007140000528255018070110319889406568444360071400004760550180701114869858102584443600617000089775251910011163766620834744436008810000772352519070111534757103144444360093900007752500200701115876751))
 (.node 1 (.leaf 4813444360068200007819525190701114726394046754443600617000078725251907011156335620612344436008780000823450020070110365488100000444360094300006732525190701104115031000004443600617000073705501808011034056210355344436009420000855847521080111624558803553444360101400008731500200701103359465035534443601023000085804752107011038201210355344436010000000859347521070111579494203553444360099200008536475210701116578173035534443601023000086274752107011034927361059244436007040000707360016070111531133110592444360085800007197550180701115687108043974443600709000064395002007011160919150439744436000140000049145022070110372124210592444360001600000383450220701103653368)
 (.leaf 10592444360070913373244550180701103665707037084443600824000016504752107011152113120372944436006210000152355018070111581522804132444360076600001536475210701115368175042524443600837000015184502207011137795260337344436008190000149755018070111546407803513444360087000001622450220701103842667040394443600877000014904502207011154654611059244436008780000150047521070110385662310592444360066400002720625150701104004151038234443600771000025816001607011162992360382344436008070000284457517070110363812203823444360083200004548575170701103349238038234443600845000043594502207011034008901059244436008460000434145022070110353785200000444360084500004283450220701116036322)))
 (.node 2 (.node 1 (.leaf 444360084500004283450220701103845244000004443600844000010374502208011036737290000044436008450000106645022080110348287600000444360084500002316450220701116740780000004443600528000026334502207011156705050000044436001980000134145022070111611552500000444360013400001677450220701103529782000004443600014000003834502207011035590280000044436000010000036745022070110296834600000490360000500000367450220701103078173000004443600025000003834502207011159916230042044436000240000039545022070111460112200420444360001300000416450220701103127459004204443600018000003454502207011157883620164344436000000000083145022070110347886501643444360000000000936450220701115402709)
 (.leaf 1643444360000000000898450220701103340415016434443600477000008764302307011160522370164344436000280000090843023070111500624804142444360000000000867450220701116176788047834443600000000007414502207011030632770478344436000000000074145022070110307507304783444360000000000644450220701103450050000004443600000000007144502207011153531130478344436000000000068045022070110317051404783444360015700000734430230701103072082000004443600157000007834102407011030668730102444436001340000077445022070110334030403347444360084500000800390250701103705053033474443600845000010094502208011031427380512644436008450000100945022070110350141405126444360084500001396450220801115515563))
 (.node 1 (.leaf 5126444360084500001245370260701103904520051264443600003000003034502207011033943060512644436000240000022945022070110330669400238444360002100000432450220701103620318002384443600000000010764502207011154096711059234336000000000103845022070110312891400000507360079900001115450220701103302698000005073600686000010104502207011034807180000050736000090000070745022070111536594700000507360001000000956450220701115435057000005073600002000010104502207011035025010000045236000220000018645022070110334295500000452360000000000987450220701103285902000004523600021000003224502207011032172920000045236000170000026745022100111620520700000452360001400000436450220701116178573)
 (.leaf 452360000700000956450220701116552712000004443600845000014434502207011165206470000044436008450000146545022070110422461700000444360084500001479450220701103975767000004443600014000012174502207011035291910000057936000050000042645022070110392026200000579360002400000436450220701103350804047474443600048000003674502207011033074770474744436000000000039545022070110316610300000579360000200000426450220701116122718000005793600004000003954502207011161144490000044436000040000040245022070110359629800000444360001800000383450220701103206840000005273600021000003674502207011031208110000052736000110000036745022070111521750400000527360002500000383450220701103814097)))))))
 (.node 32 (.node 16 (.node 8 (.node 4 (.node 2 (.node 1 (.leaf 786444360002600000383450220701103277160007864443600026000003834502207011034922420031144436000720000024445022100111492171600442444360002600000267450221001115118436008704443600176000003574502207011042872430045444436008350000038345022070110388147500833444360022100000357450220701115296737016284443600719000011154502207011162673640163144436009530000103845022070110404567301257444360062700000383450220701103692667012684443600450000003834502207011155210290060444436002260000034545022070110366117000946444360050500000558450220701103553928017194443600870000008674502207011145072100053644436008700000045145022100111386335602449444360080000001836450221001114680852)
 (.leaf 3998444360080700001528450220701114762314025654443600807000015014502207011151313860115344436008070000246245022070111489047300000444360080700001690450220701114716805007854443600807000022854502207011036012610000056036008070000200445022070110359878400000560360080700002195450220701114722217000005603600807000025384502208011040431300000056036008070000253845022080110401381100000487360080700003109450220801103732003000004873600807000021264502207011038203130023844436008070000312745022080111545169700238444360080700003421450220801103623667000004443600824000034045251907011036266350000044436008320000124162515080110414813800000444360061700001422625150801103726278))
 (.node 1 (.leaf 444360061700000885625150701103637705000004933600207000008416001607011153788620000049336000720000082160016070110366955000000502360086700001485600160701115633764000004443601011000014995002007011036579900000052136011410000192639025070110306704000000521360085800000755625150701116197962000005213600858000007026251507011034952580000044436008580000070962515070111601265600000444360085800001172625150701114689139000004443600623000006866001607011034154920094244436006230000068660016070110305081600942444360062300001147600160701103278802020334443600623000010886001607011151842050261044436006230000102760016070110414458300000543360062300001156600160701103618873)
 (.leaf 543360062300000763600160701115837669028254443600623000007876001607011149710250282544436006230000077860016070111594368002711444360062300000795600161001115930375018074443600623000008036001610011157351630180744436006230000080960016100110337862501807444360062300000756600161001116069911018074443600623000007876001610011157989310202544436006230000077160016100111595430501151444360062300000710600161001103700743019924443600623000007106001610011030850081059240136006230000077160016100111483892000000460360062300000739600161001115068232000004603600623000007636001610011161099711059240136006230000074760016100111502817101322444360062300000726600161001103599599)))
 (.node 2 (.node 1 (.leaf 460360062300000694600161001115791293013224443600623000006766001610011036406410132244436006230000065560016100111490790801689444360062300000747600161001103353383015814443600623000007266001610011034352220176344436006230000068660016100111593715601747444360062300000676600161001114884244009604443600623000005896001610011147697770206344436006230000069460016100111451072202323444360062300000710600161001114665713039444443600623000012066251510011136978390407944436006230000118362515070110330565601457444360062300001183625151001103234091014574443600623000007876001610011152257610032144436006230000058960016100110344808601340444360062300000627600161001115231236)
 (.leaf 444360062300000314600161001115800126000004443600623000002116001615011036019640000044436006230000019660016150110398715300367444360062300000726600161501115248301001924443600623000005966001610011160140140431644436006230000269030000100111332556801431444360062300001729300001001113325568007334443600623000007073000015011022591260112444436006230000100630000150111348267201294444360062300001519300001001113482672026274443600623000014593000010011134826720262744436006230000108330000100111348267202627444360062300000447300001001113482672029864443600486000000503000015011134826720298644436004860000000030000150111459853902846444360048600000000300001501114598539))
 (.node 1 (.leaf 3610444360048600000000300001501114598539029714443600486000000003000015011022591260297144436004860000000030000150111348267203370444360048600000000300001501113482672025144443600486000000003000015011133255680199444436004860000000030000150111332556806557444360000000003139450221001113643793065594443600000000033044502210011142473970567344436000090000370747521100111446525707835444360000000004744450221001114749386075524443600689000058636251510011146166930790344436000000000474445022100111464833206341444360000002032835450221001114288108070044443600000000038114502210011141171130638844436007930000511960016100111506148508103444360051700005893575171001115363301)
 (.leaf 7353444360068900005717625151001115238585068834443600689000053896251510011146346200671044436001530000433560016100111445890106711444360015400004335600161001114544526083214443600028000060326501401011136284340458944436003840000241455018070110349524202445444360003300002755550180701103374989105923703600714000055035751708011164660690000049436006980000573055018080110392506206874444360076600007015575170801116013949069774443600807000059336251508011163591400740744436007040000579455018080111616294500000587360103100006264525190801103748959105924203600936000059435501808011150416731059242036010110000614052519080111591318205838444360100800006227525190801104055506))))
 (.node 4 (.node 2 (.node 1 (.leaf 5838444360070400006020550180801114996672062684443600714000061705501808011163754960713944436007140000626155018080110471153206937444360071400006170550180801115826858072924443600714000061705501808011140868350776844436007140000759455018080111484089206607444360071400007370550180801115382284068214443600714000074335501808011160272400585244436009230000722552519080111529015405187444360089000006086550180801114995072050864443600877000061705501808011161461950553644436007140000483555018070111579492406140444360071400004817550180701115353148066024443600714000047605501807011145689080793644436008310000635055018070111497000107448444360061300007849550180801115033610)
 (.leaf 7218444360061700007483525190801115149511045664443600576000076065751708011157880800698844436009630000753052519080111704320402935444360102400008827525190801115319555058374443601003000086755251908011039685480583744436005760000883555018080110411947306123444360099300007495450220801103876078105924443600939000075484752108011035365611059244436009490000737647521080110410236810592444360088500008877600160801103526012000004443600968000086654502208011037295730000044436009680000863445022080110380995903553444360100000008598475210801104096221035534443601023000074384752108011039279141059244436000170000034545022070111652992410592444360002000000780475210701115534227))
 (.node 1 (.leaf 10592444360035700002965550180701116417903105924443600617000041635751707011041105860302744436005920000440260016070110405217903027444360059200004367600160701115189550034994443600698000043535751707011040133910468844436007190000439055018070111549486803706444360057600004367600160701115898460041744443600793000043125751707011040225530403944436008770000420647521070110387718710592444360083500004455550180701115919873105924443600714000044746001607011040504851059244436007930000441757517070110376477503823444360082400004455550180701103876274038234443600639000045626251507011161513671059244436008030000442050020070110396765200000444360083600004071475210701104918631)
 (.leaf 444360084400004138450220801116118234000004443600845000009784502208011042569960000044436000240000042645022070110381315400000444360000100000395450220701103330800000004443600017000003954502207011036443590000044436000160000035745022070111488454600000490360000300000345450220701103092231004204443600007000004264502207011032061270042044436000000000039545022070111473814901643444360000000000481450220701103449082016434443600000000004684502207011038860570414244436000000000046845022070111526153404142444360000000000805450220701103386272041424443600000000008314502207011039696560414244436000000000085045022070111484908004783444360000000000451450220701116034001)))
 (.node 2 (.node 1 (.leaf 4783444360000000000436450220701103610768047834443600000000008314502207011038804150102444436000110000080545022070110347435501815444360084500000835410240801103781652033474443600845000009754102407011039576230334744436008450000128441024070110421954005126444360084500001325390250701104654528051264443600845000013353902507011041635150512644436008450000137441024070110442970505126444360001500000199450220701103661023002384443600025000002294502207011036024370023844436000100000055845022070111520734300238444360000900001038450220701103556242047354443600011000010384502207011155452200473544436000130000098745022070110357621700000507360002000001010450220701103621580)
 (.leaf 507360000000000901450220701103605372000005073600007000007074502207011034530260000044436000260000026745022070111526197800000452360002600000436450220701103697580000004523600014000005894502207011036736270000045236000210000055845022070110350013400000444360001800000436450220701116434926000004443600011000004364502207011161695210000044436000130000055845022070111610346600000444360001500000956450220701103845766000004443600656000012454502207011164099510000044436006230000130045022070110398924000000444360000600000857450220701103369234000005793600014000003674502207011036010820000057936000110000111545022070111538032104747444360001900001076450220701103635684))
 (.node 1 (.leaf 4747444360000000001115450220701103830177000005793600000000003834502207011033598740000057936000140000034545022070110354487700000444360001600000345450220701115353903000004443600022000003574502207011165019060000044436000060000032245022070110344146600000444360000700000267450220701115935235000004443600010000003224502207011160333030000052736000130000036745022070111515963000000444360001700000357450220701115871110000005273600018000002444502207011037337940000052736000140000029645022070110372743600000527360002400000345450220701103719201004204443600026000003454502207011160650610078644436000260000034545022070110370129700786444360065600000367450220701103739437)
 (.leaf 786444360003200000322450220701103910711007864443600790000003954502207011040324500150044436004310000036745022070110386919801500444360068600000357450220701103782825015004443600283000003674502207011036868170150044436006130000034545022070110372168002562444360087000001321450220701115781827004394443601012000014354502210011042472190074544436008670000121745022100111616535000342444360068900000383450221001116376745003074443600505000003454502210011157467260083344436001760000039545022070110415411001631444360046700000426450220701116291242012574443600870000010104502207011046675620194644436003410000114945022070111534593101094444360017600000558450220701115487976)))))
 (.node 8 (.node 4 (.node 2 (.node 1 (.leaf 704444360062700000518450220701115026082002764443600856000005894502210011143690070018044436008700000057345022100111597115802246444360080700001836450221001114680852021254443600807000025414502210011145320340174844436008070000279245022070111607074000808444360080700003344450220701115753528025214443600807000033844502207011164082230135544436008070000352045022070111481035601067444360080700002869450220701115568094013554443600807000027694502207011147599100059644436008070000292045022070111572424402104444360080700003086450220701115322655024964443600807000030084502207011151127670187544436008070000300845022070111515198201875444360080700002769450220701116156366)
 (.leaf 1102444360080700002538450220701115857737003604443600807000022474502207011153708560036044436008070000234245022070110387920800785444360080700003724450220701115464349007854443600807000033624502207011161025170000056036008070000346845022080110390051000238444360079000002351475210701104287553002384443600790000020324752107011037927740000048736007660000203247521070111606836000238444360068600001902475210801116078752002384443600709000022274752108011039457380023844436007140000208547521080111489778500238444360068900002085475210801104255260002384443600779000027354752108011039642620023844436007990000288247521080111536663700238444360080700003362450220801116310528))
 (.node 1 (.leaf 238444360080700003468450220801103859752000004443600825000035085251907011037894640000044436008350000116160016070111575158200000493360061700001213625150701104038775000004443600617000012596251507011161716500000044436009860000243652519070110439249400000444360104900003378475210701115102200000004443601098000034094302307011147508020000044436011410000327839025070111451019200000521360114100004175390250801103697776000005213601141000040473902508011140704710000052136011410000267139025090111370803700000521360085800001716625150701104057000000004533600858000007306251507011040221970000044436008560000113262515070110344874700000539360062700000702625150701103509324)
 (.leaf 444360062300001133600160701116048003000004923600623000007106001607011035669420000049236006230000073960016070110364092200942444360062300000739600160701103539356009424443600623000011336001607011158111030000049236006230000114760016070111579506102610444360062300001156600160701103770359026104443600623000011476001607011039493790000054336006230000073960016070110367451200000543360062300000787600160701103827893018074443600623000007716001607011035046030199244436006230000072660016100110380860310592401360062300000719600161001114830840105924013600623000007396001610011147963270132244436006230000071960016100110408849402053444360062300000710600161001114781033)))
 (.node 2 (.node 1 (.leaf 1442444360062300000686600161001115025682020054443600623000007106001610011039430280235044436006230000072660016100111479768103380444360062300001146450221001114438979028014443600623000010915002010011142824860099244436006230000058960016100111535746601692444360062300000665600161001113684142020614443600623000006946001610011145133480241244436006230000071060016100111332556803160444360062300001155625151001103673930014574443600623000007556251510011039242220145744436006230000071960016070110449976501457444360062300000655600161001115069507004794443600623000006276001610011044201810077444436006230000053960016100111578408500465444360030600000512600161001115162186)
 (.leaf 43444360062300000455600161001115127172000194443600623000004556001610011043155880000044436006230000021960016150110451659500033444360062300000455600161001115269680000344443600623000004196001615011157216850197844436004930000179930000100111332556801812444360062300001833300001001113325568008274443600486000009453000015011133255680213544436006230000180330000150111332556802627444360048600000000300001501102491515029864443600486000000003000015011134826720298644436004860000000030000150111464203102986444360048600000000300001501114642031029714443600486000000003000015011024915150232944436004930000003530000150111332556802681444360049300000000300001501113325568))
 (.node 1 (.leaf 2637444360049300000420300001501113325568029404443600493000015563000015011133255680228344436004930000174130000150111332556801954444360049300001646300001501113325568008984443600402000009293000015011133255680156544436001720000119930000150111332556807256444360000000003952450221001114006190068934443600000000038114502210011035271160798444436000550000461650020100111484698207239444360002600004862500201001115963256064594443600198000048175501810011040142470608444436000550000428050020100110360538306227444360001300002717475211001103471645071924443600028000044425002010011153686700609444436003340000563552519100111509422806730444360092100005377600161001114838878)
 (.leaf 7055444360000000003811450221001113552752067164443600152000043356001610011143567530672344436001530000433560016100111445890107723444360002800005246650141001115448092082554443600028000060326501401011151860840596544436002260000373060016100111505415604589444360068900003622525191001115942322024454443600136000031485501807011036956461059229936007990000579160016080110408079406419444360082800005717625150801104247395057924443601076000063955002008011038742480622544436011010000632750020080110441798610592396360099900006140525190801104136849105923963600983000061405251908011162797550583844436009420000626452519080110437024706264444360095200006421525190801103649520))))
 (.node 4 (.node 2 (.node 1 (.leaf 7331444360055800007139575170801115643352079964443600558000075445751708011153088560850544436005580000762157517080111538846308783444360055800007652575170801115427230088704443600558000076215751708011159529761059244436006980000751655018080110440295500000444360094300008799500200801103690991000004443600930000086945002008011150768740000044436009720000866545022080111535446900000444360098800008726475210801116387092000004443600945000088315501808011155221240000044436009290000881845022080110439931203553444360103600008763450220801104019269105924443601046000074954502208011041667311059244436005670000339345022070110401355004397444360017600001642450220801116318056)
 (.leaf 4397444360001800000680450220701115351109105923583600017000005184502207011159965941059244436000250000092547521070110464434910592444360066400004416600160701104795818105924443600828000043905501807011043784281059244436008720000445652519070110479240903675444360085800004393500200701104441831041744443600585000043826501407011041410730000044436008910000439447521070110508220900000444360066900004493625150701104179318000004443600605000045276501407011042880681059244436007140000449460016070110403155810592444360057600004335600160801104783096000004443600576000042516001608011045229600000044436000040000048145022070110442791200000444360000000000383450220701103950062))
 (.node 1 (.leaf 444360001300000383450220701103718760004204443600020000003674502207011035259370042044436000000000040245022070111606901500420444360000000000402450220701115067706004204443600019000005164502207011038651900414244436008790000086745022070110473974704142444360000000000529450220701116213146010244443600000000004814502207011038062770181544436000480000077445022070110436417501815444360084500000860390250701115025115018154443600845000009183902507011158635770512644436008450000084439025070110451100603347444360084500001272390250801104123380033474443600845000012933902507011039288610512644436008450000132539025070110422351605126444360084500001332390250701115722857)
 (.leaf 5126444360084500001344390250701104648422051264443600116000004324502207011042869710512644436000200000030345022070110392847810592343360000900000401450220701104509858047354443600011000009874502207011160923220000050736000100000095645022070110370622200000507360000700001076450220701114854467000005073600000000009014502207011039923820000050736000040000034545022070110449753600000444360001700000707450220701116192094000004523600013000004364502207011038128280000045236000030000070745022070111526388300000452360002000000987450220701115248881000004523600014000010104502207011159810450000045236000200000085745022070110398697700000444360002200000857450220701104032655)))
 (.node 2 (.node 1 (.leaf 444360070400000831450220701104377762000004443600000000005894502207011150659250000044436000000000068045022070111523892200000444360000000000680450220701115025945000004443600000000006144502207011159319390000044436000110000090145022070110375788800000444360001100000357450220701116138987000004443600011000004514502207011151936380000044436000050000118045022070110402329300000579360002400000987450220701103761513000005793600011000007904502207011038015200000050836000170000024445022070110386864900000508360002400000218450220701115339491000004443600016000003224502207011149276840000044436000140000032245022070111497891900000527360002600000357450220701103794386)
 (.leaf 527360000500000267450220701103794669000005273600009000003224502207011040869810042044436000250000036745022070111553244800786444360054900000468450220701103904400007864443600803000004264502207011037685620078644436000690000032245022070111557046400786444360019200000451450220701104289465015004443600870000004514502207011155152190150044436006560000041645022070110411418402372444360087000001339450220701104089059024784443600870000014274502207011139693520269444436010150000152430000100111372951001173444360109600001518450221001114532347005134443600026000003454502210011042177220125744436004670000029645022070110460562201268444360040000000267450220701115640424))
 (.node 1 (.leaf 1434444360071400000395450220701104559586022424443600807000027694502210011145409990154144436008070000242345022100111567532801355444360023200002714525190701103924454012084443600293000027625251907011148763070051444436006210000273547521070110429933500514444360080700003724450220701104253706029364443600807000033624502207011041405500000056036006130000332850020070110425777400000560360071900003537475210801103864248002384443600686000020974752108011040243910023844436006430000213447521080110445324100238444360063900002134475210801114994992002384443600766000018434752108011044784460000053336007930000168047521080111538287000238444360080700001839450220701104062104)
 (.leaf 238444360083500003377600160701104582146020374443600835000040176001607011044952100000049336007900000066162515070110422560300000493360078200000282625150701104531091000004933600807000002436251507011038432480000050236008070000031962515070111549311500000502360071900000422625150701104430528000004443600719000004616251507011156038840000044436007420000049357517070111529070400000444360076600001270525190701115039649000005213601141000039193902508011033807010000052136011410000335839025090110366422300000453360085800002946625150701104008679000004533600858000029266251507011161011550000045336008580000161062515070110396298100000539360085800000787625150701103584811))))))
 (.node 16 (.node 8 (.node 4 (.node 2 (.node 1 (.leaf 539360062300001173600160701103537640000005393600623000007716001607011159041700000049236006230000074760016070110419633100000492360062300001156600160701115964077009424443600623000007636001607011150499730000049236006230000113360016070110353153701807444360062300000795600160701103794194018074443600623000007876001607011036828680180744436006230000118460016070111604905001807444360062300001189600160701114533308018074443600623000011896001607011159996120180744436006230000078760016100111465984801807444360062300001165600161001114847178018074443600623000011736001607011166322940180744436006230000114060016070111563214500000497360062300001156600160701103991017)
 (.leaf 1807444360062300000787600161001115946765018074443600623000007476001610011039184881059240136006230000073960016100111515011610592401360062300000719600161001103922556105924013600623000007036001610011149974211059240136006230000113360016100111596539602176444360062300001126600161001103926437020504443600623000007196001610011150649140225244436006230000065560016070111577057401984444360062300000710600161001114536328018904443600623000007036001610011146621520142844436006230000067660016100111521908203993444360062300001134450221001103783344029584443600623000011464502210011038448250133244436006230000062760016100111512410801049444360062300000579600161001115140496))
 (.node 1 (.leaf 2686444360062300000726600161001114839161027844443600623000007396001610011153386490254544436006230000073260016100111570659002547444360062300000732600161001114638818030084443600623000007786001610011139137120353944436006230000080960016100111399963303412444360062300000795600161001103590620040324443600623000007456251507011156974540316044436006230000113262515100110414553101457444360062300000777625151001103645272014574443600623000006866001610011040520700145744436006230000067660016100111551135300727444360062300000655600161001105028979000284443600623000004216001610011046613360028844436006230000042160016100111357638200000444360062300000351600161001114076261)
 (.leaf 444360062300000388600161001114593736001424443600623000005806001610011151070990003544436006230000054160016100111469306703797444360062300002451300001001113325568028894443600623000023423000010011133255680384444436006230000266230000100111332556803239444360062300002507300001001113325568026274443600623000021973000010011134826720282644436004860000000030000150110272299202826444360048600000000300001501114730696029864443600486000000003000015011134826720298644436004860000000030000150111468608902986444360048600000000300001501113482672029864443600486000000003000015011146860890297144436004860000000030000150110272299202971444360048600000000300001501113482672)))
 (.node 2 (.node 1 (.leaf 2971444360048600000000300001501114686089029714443600486000000003000015011146860890297144436004860000000030000150110272299201461444360048600000123300001501113325568021904443600493000001393000015011133255680683744436000000000330445022100111396572306810444360000000003489450221001114274428074864443600000000042574502210011149033000693644436002210000464655018100110430621506459444360058500005119600161001115506150051014443600846000053626251510011150608980510744436009490000480362515100111541850305107444360096000004508625151001116170623060844443600293000042885002010011037379210622744436004310000480152519100111473308807192444360002600005429475211601116115988)
 (.leaf 7096444360068900005257550181601116043178066714443600000000033044502210011144548400730944436000280000497665014100111397659306057444360068900003528525191001103987802052874443600689000036235251910011155241670528744436003570000333455018100111528720304397444360019200003334550180701104132158043974443600322000061965751708011042147050941044436007140000791252519080111405237610592357360101800006300525190801104038527043974443600835000058785501801011042232480583844436007140000639155018080110418228007639444360071400007516550180801113676308085994443600558000077115751708011154001010814644436005580000762157517080111445016507143444360055800007390575170101114214672))
 (.node 1 (.leaf 7676444360055800007323575170801116258435074064443600558000076215751708011156665020717344436005580000754457517080111630638107986444360055800007621575170801104578433079864443600558000075445751708011041613300698844436005850000768452519080111631446700420444360055800007682575170801116534081105924443600558000088465751708011050778970042044436008320000870852519080110427792910592444360088200007292525190801116096615105924443600968000072354502208011158337691059244436009680000711645022080111696179010592444360094400007332500200801104938434000004443600904000088655751708011044285790355344436009610000880047521080110454509303553444360101300008743500200801104350101)
 (.leaf 3553444360103600008682450220801116106510105924443600024000013924502210011045715691059244436000250000024445022070110417561810592444360002100000367450220701104282708105923583600017000003714752107011052268211059235836007040000436857517070110516447810592444360062300004386600160801104652539105924443600634000042516001608011045341441059244436008390000441660016070110451819310592444360087000004405525190701104519414036754443600837000044386001607011045706700000044436004670000445167513070110447159800000444360046700004542675130701104722372000004443600849000044055251907011045248390000044436008970000444347521070110458736600000444360079300004548575170701104679184))))
 (.node 4 (.node 2 (.node 1 (.leaf 10592444360082400004533550180701115674230105924443600793000045185751707011154093270000044436005760000440260016080111652260100000444360077100004369550180701116004812000004443600790000050335501807011043656110000044436005760000735160016080110484398900000444360001000003642450220701104757661000004443600431000019744502207011053093820000044436000280000141445022070111628843300000444360002400000436450220701103872503000004443600273000004364502207011039071830000044436001340000043645022070110406712200000444360001400000426450220701103949456000004443600157000003674502207011146989590000044436000220000034545022070110371247900420444360000000000383450220701104076681)
 (.leaf 420444360000000000426450220701103843908004204443600000000004514502207011039358440042044436004310000040439025070110455099104142444360000000000451450220701104951824041424443600000000004814502207011042332660414244436000000000051645022070111496837200000444360000400000500450220701104787341018154443600431000008984502207011043759160181544436008450000075241024070111495886001815444360084500000647390250701104227452018154443600845000013083902503011161890940512644436008450000127239025030110448483503347444360084500001332390250801104661505051264443600845000013443902503011156324260512644436008450000133539025070110422736605126444360084500001332390250701116692587))
 (.node 1 (.leaf 5126444360030700000535430230701104066579051264443600009000003364502207011043564911059234336000180000047045022070110496933304735444360000900000956450220701104046341000005073600020000010104502207011039891870000050736003490000119945022070110440078100000507360001500001038450220701104103293051264443600014000009874502207011166292500512644436000070000103845022070111517541900000507360001000000987450220701116458511000005073600000000010104502207011043099640000055536000000000050145022070110458009400000555360001100000436450220701115480280000004523600020000005584502207011044815630000045236000000000034545022070110428901300000452360001600000436450220701104386272)
 (.leaf 452360001100000345450220701104281132000004523600026000003954502207011042942520000044436000200000026145022070111620900500000444360002500000303450220701104439190000004443600000000006444502207011044430720000044436000000000057345022070111554167800000444360002400001076450220701104165482000005793600009000009564502207011161956250000057936000010000114945022070110462397800000579360001500000367450220701115134750000005793600010000001994502207011041648380000050836000170000024445022070111496851500000508360001400000296450220701103910402000005083600025000003224502207011044737000000052736000250000021845022070110440359500000527360000900000218450220701114929932)))
 (.node 2 (.node 1 (.leaf 527360011600000257430230701104541397004204443600026000002444502207011164642180042044436003220000045145022070110448668400786444360040000000436450220701115803606015004443600870000015014502207011043477780221244436008240000132145022070110437778100748444360046700000416450220701104412918003254443600026000001814502210011144477620058344436000260000026745022100111496560600963444360002600000402450221001115046107006674443600026000001814502210011047002620023244436000260000014045022100111508391300494444360028300000432450221001114938849034424443600807000014904502210011150244800078444436007900000216347521100111512537402365444360025700002570525190701114995964)
 (.leaf 2415444360027300002383525190701116148747036874443600621000026014752107011156272730293344436006820000283347521070111502143603070444360079300003041475210701114660667025284443600505000027915002007011161553270155344436007900000269247521070111594145700632444360080700002631450220801115357773028544443600198000033975251907011042686260000056036000260000324555018070110430377100238444360071400003837475210801104600076002384443600714000036854752108011162206110023844436007660000409647521080111616854600238444360076600003415475210101104809735000005333600134000016195251908011043676370023844436001340000161952519070110454909300238444360014800001682525190701104163901))
 (.node 1 (.leaf 238444360076600002066475210801115605422056974443600835000021066001607011048021870569744436008350000219960016070111625990602037444360083500002590600160701105041483020374443600835000019536001607011046993610203744436008350000035160016100110411519800000493360083500000208600161001104134922000004933600835000003176001610011047718280000050236008350000031760016100111539133400000502360083500000279600160701115131633043974443600835000002796001610011046521270439744436008350000045560016100110436141800000444360083500001260600161001104391331000004443600779000026695501807011045443800000044436009820000439252519070110424045900000444360114100004200390250701115792430)
 (.leaf 521360114100004175390250701103781868000005213601141000041033902508011044531920000055136011410000323839025070111589508200000453360114100003278390250901104414180000004443600858000026746251507011040161710023844436008580000207462515070111612394700238444360085800001419625150701103870982002384443600858000007696251507011159329560000053936006230000078760016070110417001401807444360062300000778600160701103930028000004443600623000007956001607011041224010180744436006230000073960016070111604658800734444360062300000719600160701114809668007344443600623000011336001607011043862530000049736006230000116560016070110402670702426444360062300001116600160701115404997)))))
 (.node 8 (.node 4 (.node 2 (.node 1 (.leaf 10592401360062300001116600161001104255691105924013600623000007566001610011043296420217644436006230000071060016100111597625202176444360062300000694600161001104090467021784443600623000007036001610011161147130258844436006230000075660016100111600149902678444360062300000732600161001115859400021604443600623000007106001610011148865490356244436006230000079560016100111479331203791444360062300001146450221001103789785028594443600623000011404502210011148471970295844436006230000109052519100111531949102708444360062300000719600160701104004929009824443600623000005796001610011151938490081544436006230000055460016100111530376000579444360062300000509600161001114356381)
 (.leaf 2267444360062300000665600161001104318058021164443600623000006766001610011045419260224344436006230000076360016100111448340701756444360062300000763600161001114546606031054443600623000007956001610011140431800307344436006230000079560016100111454035802548444360062300000694600161001114975539019064443600623000006656001610011151760040316044436006230000107862515100111620791701457444360062300001139625151001103786444014574443600623000006866001610011153418190145744436006230000055460016100110467723900727444360062300000554600161001104690674002674443600623000008946001610011046377770000044436006230000028660016100111550984100000444360062300000188600161001114932188))
 (.node 1 (.leaf 331444360031100000580600161001115131546065794443600493000039203000010011133255680588044436006230000421430000070111332556804618444360062300003142300000701113325568041494443600623000026803000007011133255680358444436004860000000030000150110295354003584444360048600000000300001501113482672035844443600486000000003000015011147758320298644436004860000000030000150111473069602986444360048600000000300001501114730696029864443600486000000003000015011147306960297144436004860000000030000150111473069602971444360048600000000300001501113482672025684443600486000000003000015011029535400145944436004860000021730000150111332556801762444360049300000468300001501113325568)
 (.leaf 6066444360085600004952625151001114339228074444443600134000048815251910011150741420774044436001700000524955018100111483720706657444360098400005900500201001114871293056444443600384000029525251910011044232450572944436006860000386455018100110484479305813444360082400005548550181001104205607071924443600198000041435002010011150890630609444436000140000311347521150110405447706094444360025700003464500201601114887381058504443600742000035075501810011160268200585044436007710000448257517100110447270707194444360000000003952450221001114560896066914443600000000031394502210011140349300656044436006890000585552519010111382350205385444360066900003880575170701104631041)))
 (.node 2 (.node 1 (.leaf 4397444360023200003889600160701116226704043974443600136000039555751707011043957010650344436006890000547855018080111640397708019444360071400007817550180501115729057083664443600714000064535501808011147335231059235736010690000635852519080110466910410592357360100300005855525190801115077260105923573601056000060015251908011046290890439744436010300000577752519010111634028104397444360071400005794550180801115286088043974443600714000059435501808011156668590776744436008040000680755018080111505268507159444360055800007736575170101104805632074964443600558000076525751701011042250580818944436005580000762157517080111580070107929444360055800007711575170801104825951)
 (.leaf 7929444360055800007652575170801116551903043974443600558000077115751708011047464390798644436005580000788957517080111567163706988444360055800007789575170801115272282069884443600558000077365751708011153576260042044436009680000741745022080110452263700000444360096800007297450220801105175654000004443600968000072974502208011157329880000044436009520000864150020080111570513400000444360084600008771625150801104624547035534443600968000087814502208011048490060355344436009640000867847521080110539092603553444360095800007438475210801115436696035534443601036000073844502208011047376671059244436000640000043645022070110470374810592358360002000000140450220701104698548))
 (.node 1 (.leaf 10592358360002500001511475210801115217888105923583600060000018165251908011053453331059235836006860000440260016080110470442110592358360079000004671575170801115797756105924443600689000055715751708011046228031059244436007770000597155018080110479795610592444360085600004337550180701104417444105924443600836000044026001607011156106451059244436008670000444152519070111617254610592444360083600004438600160701115600159105924443600856000044045501807011161633930000044436008530000447655018070110466881000000444360087000004498525190701115708150105924443600901000044775251907011054484361059244436008970000443957517070111583640010592444360086200004439575170701115909437)
 (.leaf 10592444360063400004351600160801116740660105924443600576000042896001608011166579401059244436005760000436760016070111661222910592444360057600004367600160801115725448105924443600576000044996001608011157630291059244436005760000581760016080111628681310592444360057600007081600160801116807502000004443600617000078136001607011058250971059244436006010000784057517080110482878410592444360080700006080450220801104933423000004443600442000023694502207011047754890000044436008370000136545022070111498972900000444360084500002113450220701115992384000004443600656000004264502208011046858730000044436008450000042645022080110465938000000444360061700000367450220701103921825))))
 (.node 4 (.node 2 (.node 1 (.leaf 444360001600000345450220701104034202004204443600005000003574502207011040509010042044436000000000041645022070111503009404142444360000000000481450220701104777733041424443600198000004814502207011163211420414244436000040000051645022070111624068900000444360001600000867450220701104324150018154443600845000008923902503011046030790512644436008450000130839025070111639094105126444360084500001293390250701104450292033474443600865000013834102403011047905140512644436008450000152355018070110550385705126444360084500001499500200701104921784051264443600009000003954502207011045599390512644436000720000043645022070111509805105126444360000500000395450220701115173617)
 (.leaf 5126444360001900000395450220701116241306051264443600011000002614502207011044428120512644436000180000033645022070110486670910592343360002600000367450220701115241372047354443600016000004014502207011153096100473544436000070000079045022070111622789500000507360000500000901450220701104281786051264443600009000009564502207011162419670512644436000190000095645022070111621964100000555360000400000956450220701104768700000004523600003000007904502207011045751370000046936000070000079045022070110506113600000469360000700000857450220701104652111000004523600014000006094502207011160872890000045236000220000085745022070111636440100000452360001500000987450220701115687280))
 (.node 1 (.leaf 444360000100000644450220701104603460000004443600007000003674502207011045180760000044436000070000114945022070111483187400000579360001400000987450220701104615773000005793600025000003574502207011162615510000057936000250000052945022070110470426600000579360000000000345450220701115301169000005793600007000002184502207011043314900076244436000150000021845022070110483185800762444360002000000267450220701115785216007624443600013000002674502207011157826040000052736000040000032245022070110437729100000527360001600000244450220701115029851004204443600008000002444502207011044129360042044436006210000107645022070111519776800420444360051700001149450220701115367749)
 (.leaf 786444360082400000402450220701105356162021974443600486000012614502207011154877760210744436006640000128345022070111532835701242444360087000000529450220701116042671019864443600870000005574502207011146935070092144436003760000040245022100111547646000418444360002600000218450221001115921389003884443600026000001994502210011151146720061444436000260000029645022100111443286401508444360080700000714450220701114008977033024443600807000027284502207011139648230457644436008070000435945022070111407097402578444360063400003432475210701116514821025784443600032000032455501807011163479560000056036001980000334352519070110476226700000560360080700002090450220701104491077)))
 (.node 2 (.node 1 (.leaf 560360080700002062450220801104742935000004443600807000023004502208011163245160023844436008070000231445022080110488206400238444360077100002285450220801104771464000005573600777000022474502208011044853090023844436008030000393845022080110482959500238444360080700004216450220801105081769000005333600592000039615002008011155531970000053336005850000406250020010111503062100000533360080700001729450220701104942676002384443600807000018394502207011048676420569744436008350000237460016070110483000002037444360083500002374600160701116346201035544443600835000025666001607011049135120355444436008350000227760016080110486449303554444360083500001640600160801104776776)
 (.leaf 3554444360083500001520600160801116511945000004933600835000018896001607011053098120355444436008350000100060016100110461608304397444360083500000499600161001104805902000004443600825000031456001607011043992980361844436011410000411639025070110436703900000551360114100004116390250701104093250000004533601141000033643902507011158516760000045336011290000338041024070110457335900000453360085800002865625150901104446226000004443600858000028656251509011160129470023844436008580000202862515070110429149500000626360085800001419625150701104873956000004443600623000011776001610011043880930000044436006230000071060016070110456002700000444360062300000739600160701114986187))
 (.node 1 (.leaf 734444360062300000719600160701104473577000004973600623000007786001607011043218180000049736006230000075660016070111549277100000497360062300001165600160701115361028009474443600623000011406001607011157535730242644436006230000073260016070110444230210592401360062300000756600160701104436499024264443600623000007326001607011151258850242644436006230000073960016070111441014802426444360062300000739600161001114752906024264443600623000007266001610011160611200197644436006230000071960016100111468842203767444360062300001134450221001103949918028594443600623000010744502210011045832280347744436006230000103550020070111470148202708444360062300000703600161001104426931)
 (.leaf 2673444360062300000739600161001114168089017284443600623000006656001610011146624530069144436006230000055460016100111503726400907444360062300000564600161001115852090025914443600623000007266001610011157513910262444436006230000071960016100111607093003619444360062300000787600161001113953159039334443600623000008096001610011136283450091644436006230000099060016100111618029801724444360062300000990600161001114835031016424443600623000006766001610011150035460145744436006230000073062515100111447346901457444360062300001125625151001114651811007724443600623000006056001610011162063910077244436006230000052460016100111533249000727444360062300000564600161001104524692))))))))
 (.node 64 (.node 32 (.node 16 (.node 8 (.node 4 (.node 2 (.node 1 (.leaf 444360062300000464600161001104804883078514443600493000050103000007011133255680915644436006230000595530000070111332556805616444360062300003748300001001113325568054574443600623000035443000010011133255680358444436004860000000030000150110318314002568444360048600000000300001501103183140026854443600493000016383000015011133255680303144436004930000183230000150111332556808219444360093400006555650141001113362574056444443600357170048175501810011046198040721344436007040000509157517100111537721105813444360035700005587525191601105279365082224443600000000047434502216011155935620584244436001860000251750020150111535512105618444360090100001959575171501115038598)
 (.leaf 4878444360000000000936450221501114770731023994443600322000018105002015011145520390461244436000330000314747521150111445070008230444360011600005446500201001115206687079324443600322000053775002010011146266410717444436002570000502460016100111443923206266444360052800004496575171001115037015059334443600689000059615501807011042831580538544436006130000380255018070111602273204397444360062700003765550180701104920250072614443600689000071805501808011048441420826444436006890000768355018080111464130609996444360071400007872525191001115790213070284443600929000064215251905011051408861059235736010480000600152519080110497329804397444360098900006001525190801104818514))
 (.node 1 (.leaf 10592444360095500006140525190801116093301105924443601101000062315002008011054450190680344436007140000639155018080111553799807298444360055800007453575170101117373268087764443600558000077645751708011157070850827844436005580000765257517080111543563107981444360055800007682575170801104704450093954443600558000077895751708011156621370792944436008280000773755018080111530782305697444360055800007736575170801105183523043974443600558000074905251908011052342840460344436005580000756952519010110447370104603444360055800007332500200101104648429004204443600558000086654502201011045558390311244436008370000718055018010110469011504511444360068600007617650140801116323620)
 (.leaf 4511444360091100007682575170801115368215105924443600968000072354502201011052808430000044436009410000887857517080110464558110592444360092100008910575170801104372018105924443600944000087435002008011156440461059244436009040000884657517080110490477110592444360000800000296450220801104960758105923583600113000018575251908011046835881059235836007930000771157517080110628223910592444360078200007563600160801116742994105924443600793000077336251508011159489011059244436008350000762355018080110504863110592444360080300007263575170801105125180105924443600623000073736251508011049791381059244436007660000552860016070110501936510592444360088500004393500200701104908431)))
 (.node 2 (.node 1 (.leaf 10592444360088500004406500200701115560686000004443600904000044214502207011155519621059237636008880000447850020070110486783510592376360087700004456525190701105397582035554443600872000044775251907011057039650355544436008460000447557517070110527787003555444360084200004475575170701116554658011504443600862000045195501807011151504350216344436008320000451660016070111382106310592444360084400004768600160701103549204105924443600793000042896001608011050922701059244436006050000765060016080110571103510592444360084200007685500200801105779456105924443600836000037794502208011051038451059244436007090000302145022080110472385110592444360019800003785450220801104815279)
 (.leaf 444360084500000357450220801104468986000004443600845000003454502208011041348290042044436005580000042645022070110460382300420444360001600000481450220701115626901004204443600000000005294502207011153087410042044436000000000042645022070110464864100420444360018300000451450220701115242343004204443600349000004024502208011047495670042044436007040000048145022070110499296404142444360084500000529450220701104803599046774443600779000005164502207011161144870467744436008450000095245022070110432028904677444360084500000952450220701104978699041954443600845000004824102407011046538110512644436008450000086039025030110485898705126444360084500001308390250301104638070))
 (.node 1 (.leaf 5126444360084500001308390250301104855593051264443600856000014704502203011158831120512644436008440000148752519070110533329305126444360084500001522575170701115951240051264443600845000014965751703011057029440512644436005920000095041024070110470364105126444360065600000715410240701116229022051264443600024000005014502207011154811720512644436000000000030345022070110499459905126444360000200000367450220701115432223051264443600024000001994502207011047346680512644436000200000018645022070111633701505126444360002200000186450220701104876611051264443600017000005584502207011051030700000055536000140000090145022070111633113800000555360002000000956450220701116221062)
 (.leaf 452360001100000707450220701104354762000004523600006000004364502207011045241810000046936000060000090145022070110487056200000469360002200000707450220701104951787000004443600011000007074502207011162747610000044436000060000085745022070110549622100000444360001400000367450220701116362289000004443600016000009874502207011046565200000044436000000000058945022070110471148600000444360000000000573450220701104579040000004443600007000009874502207011048288590000044436000160000118045022070111523173600000444360001400001010450220701104639635000004443600019000008574502207011044461040000057936000020000039545022070111574057900000579360002400000218450220701116247773))))
 (.node 4 (.node 2 (.node 1 (.leaf 579360002000000244450220701104592654000005793600020000002674502207011045585840076244436000140000026745022070110462635500762444360002400000357450220701104702338007624443600006000002964502207011155848760076244436000110000029645022070111507313200762444360001700000244450220701104717254007624443600017000003574502207011156951640042044436000180000040245022070111640271000420444360000500000426450220701116101302004204443600020000012304502207011052800860042044436008450000118731029070111645961500420444360032200000345450220701104832533007864443600104000003674502207011047165690078644436008490000114945022070111662724401512444360054900000367450220701105006401)
 (.leaf 1512444360087000001470450220701115591543029874443600870000014904502207011047890090291444436008070000266245022100111398744703540444360080700002739450221001115331100025794443600807000024734502210011157427540222044436008070000228545022100111572002202578444360014800003221525190701105108231000004443600807000038974502208011047962970000044436008070000275045022070111438300400000444360080700003620450220801105010817002384443600807000035744502208011047048650023844436007710000215245022080111485108600000557360077100002189450220801115860287002384443600807000022474502207011155737830023844436006690000337347521070111527305300238444360045000003328500200701116276817))
 (.node 1 (.leaf 238444360016400002893525190701115565665002384443600215000020435251907011048801360000053336001570000145552519100111514871900000533360006000001593550180701116196873000005333600072000015545501807011151817550000053336002730000315052519070111516442800000533360013600002052525190701115384328002384443600807000023424502208011053260090000044436008070000264445022080111618808900000444360080700002681450220801104981146000004443600803000023144502208011047224690569744436007790000231445022080111624891303554444360083500002106600161001105191299035544443600835000020956001607011155999180355444436008350000171260016070111645778000000444360083500000498600160701116426055)
 (.leaf 444360083500000317600161001115601881000004443600835000002796001610011162646290058244436008350000041960016100110497230103618444360114100004116390250801104260836036184443601141000041863902508011159162040361844436011410000410339025080111597918500000551360114100004091390250801105081657000005513601141000033423902507011147586950000045336011350000335839025080111483369700000444360085800002888625150701104834957000004443600858000030046251507011046933520023844436008580000289762515070110482643400000626360085800002627625150701104954949000006263600819000011066251507011047552550000044436006820000116462515070111436946000000626360062300001177600160701114281141)))
 (.node 2 (.node 1 (.leaf 626360062300001177600160701114759687007344443600686000011326251507011150813290073444436006230000114760016070110473344500000444360062300001116600160701115833080000004443600623000011266001607011047606440094744436006230000073260016070110445566102426444360062300000710600160701114836126024264443600623000007476001607011158076690242644436006230000075660016070110477074402863444360062300000778600161001114546245034924443600623000008096001610011137141310299944436003050000071960016100111528626104031444360062300001162450221001113987613030014443600623000011464502210011144207900309144436006230000117145022100111403338902859444360062300001083450221001104739142)
 (.leaf 3477444360062300001092450221501104560068040374443600623000011464502210011148228310413344436006230000116245022100111409440402802444360062300001164500201001114207945037994443600623000011885251910011141492690240444436006230000109955018150111455473602573444360062300000711575171001114326468033254443600623000007636001610011146463690230644436003010000066560016100111445375901598444360062300000647600161001115199657004124443600623000004406001610011152442330344844436006230000077160016100111613854201488444360062300000665600161001104754127014574443600623000005896001610011147999520077244436006230000056460016100110503835800478444360062300000472600161001116547033))
 (.node 1 (.leaf 1070444360062300000676600161001104801741007764443600623000006056001610011154293690019744436006230000075960016150110493317400098444360062300000372600161001115737351094444443600493000058753000007011133255680796844436004930000549930000100111332556804606444360062300003724300001501103411778041184443600623000024803000015011134826720411844436004860000000030000150111486762204118444360048600000000300001501114867622033684443600486000000003000015011134826720358444436004860000000030000150111482148003584444360048600000000300001501114821480035844443600486000000003000015011134826720358444436004860000000030000150110341177802476444360048600000000300001501113482672)
 (.leaf 2476444360048600000000300001501114867622017994443600486000000003000015011034117780150944436004860000018330000150110341177804443444360048600002561300001501113325568040194443600493000027653000015011133255680775744436009340000644665014100111509176206695444360093400005882650141001115231906059354443600934000053376501410011147536640592544436000100000350147521100110493577106003444360082800004669575171001116251553092214443600028000064996501401011145143260820944436000280000609665014010111427024307523444360048600006197575170101114111489060634443600689000068745251901011152395470630544436006690000594355018100111514122506717444360068900006254525191001115470501)))))
 (.node 8 (.node 4 (.node 2 (.node 1 (.leaf 6407444360061300005942550180701104611251043974443600247000055805751710011050003960439744436004500000484260016080110485542504397444360068900007484600160801116115926056474443600689000053405501808011164667020578744436006890637516855018010111617649507258444360068900006941550180101115836593086044443600689000077375501808011153546250834944436007170000653450020050111529699107535444360071400007684525190501105457576078454443600714000077395251905011159715420738344436007140000630052519050110480784607383444360071400006326525190501116375915105923123600714000074115251905011057048781059231236008780000606452519080111616590110592312360071400005923525190801115220623)
 (.leaf 10592321360092900005923525190801116210401105923213601025000058555251908011150654991059232136009860000592352519080111498244210592321360086700005730550180801115774446105923213600714000059435501808011046507340439744436007140000579455018080110517369610592444360071400006020550180801104832809081664443600844000062995501808011150599250839444436006010000768257517080111554903608703444360055800007736575170801115166523087104443600558000064785751708011157088961059244436008190000771452519050110478576805697444360096800007793500200501104872649056974443600558000076525751708011053725490439744436006170000751655018080111554074604397444360055800007358450220101115152566))
 (.node 1 (.leaf 4603444360055800008763450220101115403135046034443600601000087625251901011056526250451144436006050000762652519080110511154304511444360064300007762600160101105206536045114443600968000075234502208011049449411059244436009410000756952519080111524025810592444360096101827601475210801105146264105924443600872000089516251508011050747621059244436010220000878047521080110502419410592444360082400008935675130801105095176105924443601009000069974502201011052610971059244436009630000617845022010111569149010592274360001700000551475210101116528868105923583600567000028516001608011050467381059219036008280000768060016080110514880610592444360083500007484600160801105355645)
 (.leaf 444360087900005911500200701115529329105923763600871000049895251907011155266380355544436008720000498952519070110605946403555444360084800004532575170701105368861035554443600867000045645251907011052149710125344436008390000540160016070111570307904512444360084800007423575170701105255100105924443600898000061545751707011057295521059244436009010000612755018080111543117010592444360086200007791550180801105454991105924443600832000078895751708011050818891059244436008070000723545022080110545685310592444360081900005643450220801105041832105924443600000000052004502208011053950560000044436000000000507045022080110476641000000444360022600003219450220801115839730)))
 (.node 2 (.node 1 (.leaf 444360019800003220450220801105402756000004443600198000018694502208011149918940000044436000190000038345022080110447861600000444360001100000426450220801104601439004204443600157000004364502208011149922400042044436001570000046845022070111610960200420444360084500000481450220301104943631046774443600845000005004502203011053110940414244436008450000050045022070110500157804677444360084500000886450220701115604453046774443600845000005164502207011163939730467744436008450000046739025070110555036004397444360084500000448390250701116187159043974443600845000012383902507011152716350439744436008450000090239025030111656804704195444360084500001253390250301115259733)
 (.leaf 5126444360084204151453450220301116434288051264443600104000005894502207011164597310512644436000150000040145022070111584089405126444360000900000401450220701115558257051264443600008000002614502207011163113700512644436000160000070745022070111602303700000444360001700000790450220701104939783000004523600024000007904502207011049068170000045236000150000050145022070110489974200000469360001800000956450220701104775472000005313600010000010104502207011163855720000053136000110000085745022070111636727400000444360001000000609450220701105047042000004443600011000009014502207011153882550000044436000090000047045022070111637486500000444360001500000518450220701115208071))
 (.node 1 (.leaf 444360001800000432450220701104828063000004443600005000008574502207011151617550000044436000080000107645022070110513519800000444360000000000614450220701104787577000004443600349000002343902507011163683560000044436000040000079045022070110477704700000444360001300000987450220701104668408000004443600025000002674502207011047718540000057936000190000026745022070111511914400000579360002500000573450220701116118652000005793600022000005184502207011050271300000057936000260000035745022070110488364400762444360001100000296450220701104766054007624443600018000002444502207011151959260076244436000170000026745022070110494857400762444360002800001109430230701105330092)
 (.leaf 420444360068600000416450220701104821671004204443600157000003574502207011151488810151244436000260000035745022070111533082601512444360002600000296450220701104987092015124443600839000013964502207011159061380314544436008440000141745022070110546123702254444360080700002218450221001114423205029114443600807000026624502210011150254410433344436008070000284745022100111485150902891444360080700002847450221001114857189023564443600807000043744502210011148659530394144436008070000437445022100111532306803545444360080700004080450221001114429466037164443600807000015634502207011138401500405544436008070000156345022070111366532201675444360080700002483450221001115710410))))
 (.node 4 (.node 2 (.node 1 (.leaf 1489444360080700002386450220701114958831029434443600807000023694502207011152081080225144436008070000221845022070111519905700000444360004800002299550180701105375259000004443600807000016414502208011051370710000044436008070000269045022070110476222800000444360079300003421450220801115473558000005573600779000038114502208011050523710023844436006890000382147521080111644422500238444360013600001413525190701105790301000005633600026000009845501810011154141050000056336003840000179150020070110573291800238444360080700001897450220701105474246000005633600779000018734752107011050929530000056336005170000176650020070111543831500000563360077700002384475210701116275163)
 (.leaf 533360077900002696475210701115310501000004443600621000019584752115011151777660000044436005400000160050020100111561532200000594360025700001231525191001116132385000004443600828000028694502208011051534530355444436007990000286945022080110503338203554444360079900002342450220801115508155000004443600837000024304752108011154479720000044436008350000284060016080110485031700000444360083500002840600160801116988069035544443600835000020576001610011054980451059218636008350000261460016070110520504110592186360083500000388600161001105333729005824443600835000003516001610011052835990000044436008350000065260016070111629062700000444360083500000841600160701116115372))
 (.node 1 (.leaf 444360083500001609600160701105333493000004443601141000040763902507011049791150000044436011410000417539025070111591706903618444360114100004061390250701115878821036184443601141000041303902507011048365230000058836011410000334239025070110472159000000551360114100003443390250701105094465002384443600858000036166251507011047243790000044436008580000285462515070111605523000000444360085800002789625150701105095194000004443600858000025946251507011163655020000044436008580000280162515070111444772000000444360085800002632625150701114823331000004443600858000021846251507011147538160000044436008580000179262515070111595477600000444360084400001189625150701104384325)
 (.leaf 734444360062300000795600160701104626104007344443600623000007876001607011045726200073444436007790000113962515070110512023200734444360062300001173600160701105142575007344443600623000011656001607011046789320000044436006230000072660016070111508940500000444360062300000732600160701114990944000004443600623000007396001607011160071430000053836006230000071960016070110480836700000538360062300000739600160701104564437024454443600623000007476001607011164397090244544436006230000073260016070111506363602445444360062300000703600160701104789543013934443600623000007476001610011055887580139344436006230000073260016070111518007502509444360062300000756600160701104959070)))
 (.node 2 (.node 1 (.leaf 2426444360062300000694600160701105202726035294443600623000006946001607011047827910383444436006230000112845022100111464480803341444360062300001092450221001114666626041114443600623000011534502210011146421200455444436001710000099345022100111449583402261444360062300000694600161001114664665017684443600623000006656001610011145916750242344436006230000070360016100111465021403029444360062300000739600161001114490929012754443600623000009486001610011140273590090844436006230000091160016100111463864001288444360062300001007600161001114897652012884443600623000006556001610011162247600056344436006230000053960016100111513154200377444360062300000524600161001115740214)
 (.leaf 88444360062300000387600161001115459140000804443600623000003726001610011155395050134644436006230000097460016100111440020800383444360062300000440600161001114102240001954443600623000004086001610011161577440031444436006230000040860016100110580747805286444360049300003884300001501113325568067874443600623000049493000010011133255680336844436004860000000030000150110363943203584444360048600000000300001501114867622035844443600486000000003000015011148676220358444436004860000000030000150111348267203584444360048600000000300001501114867622052774443600486000039103000015011133255680711344436004860000497330000150111332556809600444360077000007474575171001114858521))
 (.node 1 (.leaf 6513444360098200008482625151001114817022075194443600982000088766251510011146526720726044436006890000638960016010111423476306902444360048600005933625150101114527679060954443600549000054666251501011145530000604044436006340000453062515100111542894205860444360068900004192600161001115124164057484443600689000051945251907011051371970439744436001700000391655018070110500280409899444360062300006611475210801113333498077744443600639000063275002005011163369700773044436007040000771452519050111610008407535444360083600006394525190801105292766105924443600714000062275251908011049709691059244436007140000608655018050111579133910592444360071400006299550180501114476485)
 (.leaf 10592312360071400006001525190501114806874105923123600714000060015251908011049283281059244436008650000579455018080110536562110592444360071400005657550180801105272538105924443600929000063265251908011150745881059244436007140000635755018080111489557906355444360099200006227525190801116621325105924443601070000061405251908011162169521059244436009900000626452519080111530564310592444360066900006299550180801105015397105924443600656000063255501808011157404790569744436009170000771550020050110623960305697444360061700007621575170501105955836056974443600664000075445751701011161802470439744436008280000735452519010111531625004397444360069800007516550180101105699790))))))
 (.node 16 (.node 8 (.node 4 (.node 2 (.node 1 (.leaf 4397444360064300007516550180101115965126043974443600656000075165501801011153093680460344436005580000871045022010111657588404603444360057600008799500200501105133972031124443600835000088785751701011050285540311244436008070000890762515010111659578904511444360071400007904675130801105010348105924443600984000075965251901011164629891059244436009040000778562515080110593994710592444360078200008949675130801115304632105924443600937000089096001601011151801780244544436002470000717445022010111658235802445444360068900007116450220101116290014024454443600858000064444502201011153988431059244436000020000340145022010111497246210592274360014800002179525190101105628393)
 (.leaf 10592190360069800007563600160801106129974105924443600819000073075501808011153812701059244436008580000759652519080110552475910592444360089000007548475210801116291674105924443600862000077655501808011055004691059244436008720000781952519070111531592710592444360084500007974575170701115670809105923763600882000078205002007011164631891059237636009040000774245022070111533224210592444360087200007873500200701116269096105924443600824000079125251907011155208871059244436007900000781755018070111552702203555444360083200007819525190701116719334035554443600891000075724752108011162166470355544436008280000755455018070111595734303555444360077700007368575170701115775944))
 (.node 1 (.leaf 3555444360082400006919525190701116567627035554443600832000066745251907011168097970355544436008790000634447521070111593588600000444360085600005827550180701116391225000004443600825000079926001607011053098401059244436008370000787155018080111603459710592444360083700007342600160801105687745105924443600898000071395751708011062555661059244436008980000745357517080111534807410592444360089800007453575170801105943191105924443600871000077665251908011054555671059244436008070000742945022080110577517610592444360032200005178450220801105300110105924443600000000041334502208011049661030000044436000000000413345022080110547985900000444360000000001038450220801105325931)
 (.leaf 444360079300000367450220801104788888000004443600000000004684502208011053197360000044436000160000039545022080111540368000000444360002800000416450220801105477946000004443600016000004514502203011047937900042044436000040000041645022030110491726704677444360084500000481450220301105374386068144443600845000007703902503011056399280512644436008240000132145022030110544492505126444360083501771435450220301115480180051264443600844017714534502203011164982010512644436008450000147045022030111634438605126444360084500001412430230701116075278051264443600845000013974102407011155966580512644436008370000146545022030110551830905126444360000000000303450220701105555283)))
 (.node 2 (.node 1 (.leaf 5126444360000200000172450220701105242999051264443600010000001724502207011161774390000044436000200000055845022070110553503800000444360000000000589450220701105289885000004693600000000010384502207011163681820140444436000000000095645022070111624915401404444360000100000857450220701115237586000005313600016000010104502207011153475060000044436000180000085745022070111621874200000444360000300000901450220701116386043000004443600000000009874502207011151634960000044436000090000047045022070110562595100000444360052800000791370260701105554445000004443600104000003554302307011163519450000044436000090000085745022070110527366900000444360002600000857450220701105162911)
 (.leaf 444360001900001010450220701115687128000005793600022000004014502207011153029710191444436000220000043245022070111519819200000579360002600000518450220701116853055011284443600026000003674502207011051914830112844436000260000019945022070111543337701128444360006900000244450220701116553802006064443600656000001994502207011152502190060644436000240000024445022070110588852100762444360000200000244450220701105276766007624443600055000003834502207011052381520076244436000110000039545022070111558094800762444360011300000402450220701116329587007624443600528000005834502207011154741470076244436004860000124545022070110600536700420444360054000000543450220701106204996))
 (.node 1 (.leaf 420444360065600000357450220701105798465004204443600026000003574502207011155175270151244436002830000039545022070110602016301512444360005700000470450220701115878212015124443600026000004014502207011157083020222944436000260000047045022070111625105302229444360002600000322450220701115120197022294443600026000003574502207011157443150222944436000320000038345022070111520999301093444360017600000367450220701105138811012134443600605000004164502207011148554620260244436008070000256845022070111518648100000444360080700003587450220701115799092000004443600807000033624502207011165345940000044436008070000352745022070111684621400000444360080700002218450220701105585316)
 (.leaf 444360080700001542450220801105908203000004443600807000026904502207011147306170000044436008070000377145022070111585977100000444360080700003468450220701115640667000004443600807000034214502208011152054600000055736007790000352745022080111621159400000557360071900003874475210801105509570000005573600232000023095251908011165908830000055736000260000129855018100111553333800000563360002600000651550181501115303457000005633600026000005715501815011153730730000056336000260000116955018150110545295800000444360080700002753450220701105412509000005943600621000016124752107011151539420000059436007770000173247521080110546508000000444360082400002512450220801115386736))))
 (.node 4 (.node 2 (.node 1 (.leaf 444360083500002655600160801105132870002384443600835000024716001608011052123040355544436008350000265560016100110554141903555444360083500001627600161001116535552035554443600835000004986001610011154714540058244436008350000035160016100110577545600000444360083500000419600161001105744460000004443601141000034033902507011050820760000044436011410000336439025070110510912400000444360035700002924450220901114531304000004443600585000028585002009011159465060380344436008070000130362515070110517765600734444360062300000771600160701105732171007344443600623000007326001607011147295450073444436008250000078762515070110513209000734444360083500001146625150701105584909)
 (.leaf 444360083900001164625150701116107300000004443600634000007776251507011139588700000044436006340000075562515070111563206800000538360063400000762625150701114792724009474443600634000007776251507011051361330000053836006230000071060016070110494834800000538360062300000756600160701104582193024454443600623000007476001607011052258910244544436006230000073260016070111470161001393444360062300000732600160701105093904025094443600623000007786001607011051478480364844436006230000075660016070111429905403613444360062300000739600160701115174426038014443600623000008036001610011146830140420344436006230000116245022100111435977604114444360062300001162450221001114554368))
 (.node 1 (.leaf 4008444360062300001162450221001114870872036914443600623000011104502210011146589640268844436006230000064545022100111397052903514444360003400000645450221001114825129021864443600024000005164502210011153596740411644436000240000069945022100111356538701602444360030200000879600161001114529148015694443600623000010276001610011152211530022844436006230000038760016100111565311600284444360062300000397600161001115144799004504443600623000003976001610011150173900000044436006230000031460016150111565505300119444360062300000278600161501114896619003454443600308000003876001610011149258960021144436006230000039760016100111421268200328444360062300000421600161001116276205)
 (.leaf 6795444360049300004861300001001113325568033834443600486000001563000015011134826720338344436004860000000030000150110386608703815444360048600000000300001501113482672038154443600486000000003000015011149613130305044436004860000000030000150111348267203050444360048600000000300001501103866087024944443600486000000003000015011134826720247644436004860000000030000150110386608704634444360048600003166300001501113325568038374443600493000023123000015011133255680700944436006890000530160016100111404646305479444360068900005210600160501115768587048624443600689040041926001605011146059590527644436006890000318860016100111455549705319444360068900005419525191001105431733)))
 (.node 2 (.node 1 (.leaf 5748444360068906194712550180701105249118000004443600689000049055501807011163266661059235936001360000364855018070111637405710592307360010400003701550180701105172744105923073600689176052495501801011155761320596444436006890000569760016010111473708305333444360076000006072600160101115233384079564443600714000077145251905011052590530773044436007140000630052519080110563903810592444360093400006300525190801116382898105924443601013000062275251908011057236261059244436007140000751655018050110513835610592312360071400007292525190801105415586105924293600714000075965251908011147897871059232136010130000606452519080110586723510592444360071400006227525190801116459811)
 (.leaf 10592444360071408276227525190801115735300105924443600714000063585251908011044270331059244436008070000626452519080111433705310592444360097900006064525190801105860043105923493600714000063915501808011061091131059234936007140000632357517080111672312410592444360078200006170550180501115662893105924443600858164177675002005011056222800569744436008490619768452519050110593059705697444360090700007739525190501115560018056974443600782000074535751701011159426760569744436008450000735452519010110590440303949444360085800007461500200101105048634046034443600742000088004752101011054239650460344436008480000881550020010110604154410592444360079900008799500200501115307950))
 (.node 1 (.leaf 10592444360085800008815500200501105947299045114443600858000088695002005011059078880451144436009200000786860016080111530869904859444360083900007783650140801115579857048594443600934000074046001601011164679931059244436010070000733250020010111570967810592444360103100007574450220101116584214105924443601009000075234502201011155561510244544436010310000749545022010110541721702445444360001700004144450220101105536489043974443600009000039714752101011057412371059227436008490000756360016050110582995610592274360074200007970575170801106029107105921903600682000084176251508011059816121059244436006170000885962515080110536412610592444360082800008271500200801105821448)
 (.leaf 10592444360087200008068475210801115952494105924443600842000080815251908011166524861059244436008440000810152519080111585206810592243360085800008116525190901105682861105924383600853000080445501809011161427731059243836008320000799260016090111630674310592438360082800008035600160701115363862105924383600848000080345751709011161421211059244436008980000794847521030111612636210592444360088800007948475210301114857724105924443600904000078444502208011161986811059244436009040000796945022080111479221810592444360090400007844450220701115588339105924443600904000078714502207011167193000023844436009040000755045022070111617338700238444360090400007550450220701116139996)))))
 (.node 8 (.node 4 (.node 2 (.node 1 (.leaf 238444360087000007873500200701116733012002384443600846000079125251907011157449210000044436008850000787350020070111630120800000444360085800007911550180701115600971000004443600849000078715501807011164937880000044436006230000770662515080110609335810592444360079900007791550180801115654694047154443600862000077395251908011159134250471544436008910000719857517080110582574910592444360089800007263575170801115861380105924443600898000071985751708011167030191059244436008980000713957517080111648774110592444360089800007544575170801115808980105924443600898000075445751708011165823230489044436008980000754457517080111508906310592444360089800007652575170801115384672)
 (.leaf 10592444360084600007629475210501106526950105924443600807000056804502208011053395640000044436007770000540645022080111538623200000444360047700005253450220801115047219000004443600000000053384502208011051574331059244436000000000533845022080111621856200000444360000000005253450220801105779127000004443600000000038604502208011057117600000044436000000000280845022080111544424703236444360002400002342450220801116718185000004443600064000023694502208011162842790323644436001570000247345022080111505938500000444360074200002118450220801105761961032364443600845000004364502208011164419070000044436004770000040245022030111523541900000444360000000000436450220301105315114))
 (.node 1 (.leaf 444360000000000451450220301115131066000004443600000000005164502203011160621140042044436000000000046845022030110615065600420444360061700000516450220301116398874004204443600845000005164502203011055126320042044436008450000048145022030110576895000420444360084500000516450220701116564250004204443600845000005164502203011157069960042044436008450000050045022030110568302804677444360084500000557450220701105785577046774443600845000009084302307011053501670439744436008450000127239025030111637787404397444360084500001272390250301105358267051264443600845000012933902503011052842850512644436008450000143545022030110613147105126444360084500001312430230301115336655)
 (.leaf 5126444360084500001335390250301105510648051264443600845000013083902507011157002750512644436008450000132539025030111650596005126444360084500001308390250301115704426050714443600845000013083902503011163227080512644436008450000133539025030111540787105126444360084500001325390250301105367370051264443600845000013253902503011161726440512644436008450000130839025030111498493205126444360084500001308390250301105405020051264443600845000014654502203011165962620512644436008450000128345022030110583981905126444360084500001354450220301115461941051264443600845000013544502203011163150470512644436008450000137945022030111642284705126444360084500001354450220301106051703)))
 (.node 2 (.node 1 (.leaf 5126444360000900000172450220701105879321051264443600013000003454502207011054743690000044436000110000026145022070111632617500000444360001800000261450220701115294146000004443600025000004324502207011163955250000044436000110000074145022070111541564400000444360000200000680450220701116402583000004443600005000006094502207011162316030140444436000070000079045022070110555625000000531360000900000901450220701105359362000004443600006000010384502207011056865510000044436000480000107043023070110589374400000444360000500000267450220701105206595000004443600013000008574502207011055541740000044436000130000079045022070110566641900000579360002600000558450220701116537561)
 (.leaf 579360002400000790450220701115511737012464443600026000001994502207011165761100191444436000250000015745022070110538296101914444360038400001291450220701115735660018264443600349000006604502207011160343190127844436001360000039545022070111581868800633444360021500000322450220701115160313007624443600100000003454502207011054378870076244436001340000034545022070110556244100420444360015700000296450220701116735877004204443600026000002444502207011162489420151244436000260000039545022070110584969800722444360002600000345450220701105400070007224443600026000002674502207011061200880013844436000320000014045022070110544111200281444360019200000543450220701114176346))
 (.node 1 (.leaf 427444360002600000244450220701105897619004894443600026000003224502207011053209270096844436000260000036745022100111406417704104444360080700001563450221001113680643007554443600807000015244502207011055542020000044436008070000218945022070110622506900000444360080700002473450220801115181026000004443600807000020454502208011061324740000044436008070000372445022070110554196600000444360080700003771450220701114976146000005573600807000033054502208011153022430000055736007710000357445022080110546285000000557360071900003008450220801105703671000005573600803000037714502208011165179930000055736007820000206647521070111556370200000557360021500001659525191001115159446)
 (.leaf 563360002600001175550181001116508008000005633600026000013225501810011060466080000056336006130000675147521080111527774800000563360022100001258525190701105911446000005633600026000012115501810011056596720000056336000720000275555018070111615052100000563360038400002465500200701115693221000005633600766000015954752108011161006210000044436001570000110452519100110557210900000444360002600001449550180701115071471000005943600026000013625501810011059961070000059436001130000131752519100110603595800000444360044200002209500200801106379440000004443600835000022326001607011055148971059200036008350000219860016070111535163610592000360006400003334550180801105490241))))
 (.node 4 (.node 2 (.node 1 (.leaf 238444360083500002694600160801105975238002384443600835000023746001610011164628120355544436008350000219960016100110562992700582444360083500001210600161001115652914000004443600835000015886001610011161756530000044436008350000247160016100110590927900000588360062300004216450220701105433593000005883600623000043414502207011052049500000044436009960000326345022070111592268200000444360114100003420450220701114686953000004443600799000036475251907011162364790000044436008560000361952519070111622563300000444360062300003647525190801105184441000004443600026000026193502709011155500030000044436005670000357750020090111576696300000444360082800003605600160901114244014)
 (.leaf 3803444360085800003015625150701105383110024194443600623000007696251507011160973050241944436006230000077160016070110508027002419444360062300000739600160701105164138024464443600623000008096001610011140949440392144436003090000078760016100111448574804152444360062300001153450221001114276258040434443600623000011464502210011144763690395844436006230000113445022100111430573204588444360010800001040450221001114451525042304443600623000011624502210011142560480336644436006230000109245022100111456741604186444360062300001153450221001114173120043404443600024000007274502210011139803640334444436000240000063945022100111552926703207444360002400000608450221001114953555))
 (.node 1 (.leaf 2505444360002400000567450221001114788025020744443600024000005164502210011148673400172644436000240000046845022100111458407302004444360002400000468450220701115211876025134443600024000005574502210011148228690196944436000240000050045022100111511937102126444360002400000516450221001115532642004954443600623000004646001610011154666290040444436006230000046460016100111506821400175444360062300000421600161001115503456001224443600623000003876001610011156371610007144436006230000036160016100111511526500851444360062300000524600161001115270545011014443600623000005546001610011142647510592844436004930000424030000150111332556807625444360062300005462300001001113325568)
 (.leaf 3815444360048600000000300001501113482672019074443600486000000003000015011134826720249444436004860000000030000150111348267201503444360048600000000300001501115008825015034443600486000000003000015011134826720247644436004860000052930000150111348267200757444360048600000357300001501113325568025994443600486000019253000015011133255680173544436000660000101130000150111332556802324444360002900001199300001501113325568071194443600028000044965751710011148299330699844436000280000431657517100111466323006707444360072500005002575171001114448353060354443600689000043356001610011143567530565044436006890000373060016100111456104804881444360020700002455575171001105952070)))
 (.node 2 (.node 1 (.leaf 1403444360020700002393550181001105593600046094443600322000028005501810011151369770000044436005170000267055018100110564972010592437360068900006109550181001114734787035544443600221000064325501810011163367431059230736006890000547855018010111655266610592359360068900005249550180101116269251081884443600689000078886001601011143581120575644436007160000637560016010111483583907953444360066900006326525190501106249428085894443600714000063265251908011154095910732644436010190000635852519080111561578810592444360084800006358525190801114830253105924443600714000060015251905011058561751059238236007790000585552519050111546021910592382360071400006020550180801114956976)
 (.leaf 10592382360087000007594550180801115370644105924293600714000071805501808011157247801059242236007140000741152519080110617366210592422360071400006064525190101106166423105923213600714000062645251908011163370451059244436007140000630052519080110555915910592444360071400006264525190801105728423105924443600714000063005251905011154473811059244436008420000626452519050111485013310592349360083500006064525190501105734569056974443600842000074905251905011167404150419644436008580000762750020050110593534804196444360089800007764575170501105734491056974443600846000088325251905011058675610394944436008490000881550020010111487357503949444360085800008815500200101106461949))
 (.node 1 (.leaf 4603444360085800008833500200101115203557105924443600849000088495251901011159689520485944436007140000897067513050111585818204859444360077100008961650140501106299040048594443600835000076525751701011061449151059244436010090000752345022010110602726602445444360103600007550450220101106233571024454443601000000075985002003011163183490244544436010360000735845022010111622271802445444360000600005991450220101105539895043974443600003000045364502201011065358261059227436007990000853362515010111658846310592190360068900008730650140801116456003105921903600689000086346501401011058587951059244436006170000863465014010110718237710592243360089000008741450220801105657957)
 (.leaf 10592243360084600008861525190301116168765105924443600901000078894502205011157446481059244436009040000784445022080111643480310592444360090400007660450220701116869568002384443600896000078724752103011154768800023844436008070000787155018030110670264010592444360063900007811625150801115945905105924443600643000079426251508011167503190471544436008670000814655018080110621300504715444360089000007551450220701116689895047154443600896000073545251908011067262980471544436008580000781952519070111680278204890444360083700007706625150801105924755048904443600845000075624752108011065663851059244436008580000800347521080111667496310592444360085800007310475210801106555961)))))))
 (.node 32 (.node 16 (.node 8 (.node 4 (.node 2 (.node 1 (.leaf 10592444360080700008420450220801107086445000004443600807000070724502208011057723830512644436000000000514345022080110564464905126444360000000005084450220801105710948051264443600019000049954502208011056132610512644436000110000413345022080111524546005126444360001100003045450220801115510705032364443600226000034884502208011152445290323644436008450000153845022030111637927703236444360065600001024450220301116372702032364443600104000012614502203011156464540000044436000240000069345022030110540972800000444360000000000451450220301105586927004204443600000000005294502203011162296370042044436005280000054345022030111513163300420444360084500000516450220301105692247)
 (.leaf 420444360084500000543450220701105810744046774443600845000005434502207011063048840467744436008450000127239025030110595770606814444360084500000860390250301106093358068144443600845000012533902503011061247630681444436008450000132539025030110548969404397444360084503921335390250301106259716043974443600845000013323902503011065868380439744436008450000122939025030110535553205126444360084500001253390250301116244413045644443600845000012533902503011150732530456444436008450000123839025030111624310005126444360084500001253390250301116640615051264443600845000012723902503011154693710507144436008450000125339025030110614551904788444360084500001332390250301115196694))
 (.node 1 (.leaf 4788444360084500001308390250301105577067047884443600845000013083902503011055439660512644436008450000132539025030111544360005126444360084500001387430230301116541116051264443600845000014174502203011167667930512644436008450000144345022030110650234905126444360084500001321450220301105648194051264443600845000013394502203011067971380512644436008250000137945022030111564605105126444360084500001230450220301115504673051264443600014000004364502207011059587800000044436000220000009445022100110579692600000444360002500000199450220701105947829000004443600002000002444502207011154140650000044436000180000019945022070111554297400000444360001500000296450220701115886189)
 (.leaf 444360000900000383450220701115353943000004443600008000002674502207011156836420140444436000140000026745022070110592688600000531360002000000432450220701105680617000004443600007000006094502207011152051770000044436000090000043645022070110563381000000444360000100000609450220701105610189000004443600003000007904502207011058755170000044436001570000109641024070111626193800000444360000700000244450220701105801961000004443600024000003454502207011163502550000044436000060000114945022070110581148000125444360001100000181450220701115124745001504443600004000001994502207011154091950032744436000180000018645022070110549612201914444360006000001502450220701105979348)))
 (.node 2 (.node 1 (.leaf 1914444360013400001202450220701105814929036414443600026000033624502207011149941800076244436000260000021845022070110597148600762444360002600000157450220701116570169012694443600026000001814502207011154158060126944436000260000019945022070111638371501512444360002600000140450220701115504308003734443600026000001994502207011066453710064744436000320000047045022070110591387800722444360002600000401450220701106594851015344443600400000012304502207011158203520263844436006860000130045022070111612171904213444360087000001528450220701113886185007154443600026000003224502210011152166230055844436000260000026745022100111539646201241444360002600000416450221001114674168)
 (.leaf 3088444360080700001470450221001114738656007124443600807000015244502207011058684330098844436008070000155645022070110590503300000557360080700003723450220801106273707000005573600807000018884502210011165314890000055736006390000140847521100110590392100000563360002600001706550181001106282023000005633600689000074734502205011059478030377244436000260000176555018070110601322500000444360002600001932550180701106158422000004443600807000032854502208011059161090000044436004420000154350020080111570147000000444360028300000737525191501116475634000005943600026000004525501815011163793430000044436000260000037855018150111540234600000444360002600000662550181501116531203))
 (.node 1 (.leaf 444360002600001684550180701106045035000004443600257000022135251908011157154880000044436008350000198257517070111555850000000444360083500003092410240801105978426105920003600835000023974302307011060406471059200036008350000393360016080111472298600238444360002600003814550181001106269740002384443600176000024095501808011055229620023844436004230000222157517080111624008100238444360083500002374600160801115061591000004443600835000020016001610011055706780000044436008350000200160016100110579442200000444360083500002787600160701105659249000004443601124000033694102408011056816690000044436011410000311139025080110566189200000444360062300005223525190701105551152)
 (.leaf 444360096800005527575170701105644703000004443600623000051015251908011143484280000044436006230000467952519080110561340900000444360062300002959525190801104863528000004443600777000029115751709011055619780000044436007990000294760016090111486630800734444360085800002377625150701106056937000004443600858000017976251507011154379330000044436008580000114662515070110525707600000444360085800000777625150701114778817000005383600858000007386251507011055440990000053836006430000078762515070110543550201329444360064300000796625150701114786752021814443600643000007776251507011054662780033644436006230000077860016070110569592603662444360062300000809600161001113511343))))
 (.node 4 (.node 2 (.node 1 (.leaf 4262444360062300001171450221001113914541041894443600623000011624502210011140173870432344436006230000117145022100111341255604548444360002400000743450221001114068331032074443600024000005164502207011057731140310944436000240000065845022100111511529203109444360002400000713450220701105720992022774443600024000005944502210011064555240339244436000240000056745022070111522027901401444360002400000436450221001114869767015934443600024000004514502210011150579240203944436000240000050045022100111430047400662444360062300000490600161001115060404003744443600623000004316001610011157046070069044436006230000082160016100111451072200353444360062300000652600161001115398465)
 (.leaf 7527444360049300005147300001001113325568062054443600493000044253000010011133255680381544436004860000000030000150110431633103865444360048600000000300001501113482672024944443600486000001333000015011043163310377944436004860000254530000150111332556802663444360011700001502300001501113325568017554443600066000010113000015011133255680776144436000280000500257517100111423347706277444360068900004687600161001113539461044134443600366000017345751710011060793370140344436001920000166855018100110550429600000444360068900004315550181001105819220000004443600689000055815501810011151445700355444436006890000688855018100110587498310592359360068900006815550180801106091640))
 (.node 1 (.leaf 10592359360068900005478550180101115183861059364443600689214155256001601011062093771059244436008650000630052519050110564926510592444360071400005923525190501106713073105923823600714000062275251905011161602221059242936009450000756952519080111551133210592422360071400007411525190101116037579105924223600714000063005251901011147597081059242236007140000635852519010111618201210592444360083700007433550180501106564946042544443600832000076235501805011167996031059234936008580000776750020050111552098810592349360083718367594550180501107515395105924443600853000074905251905011070144860419644436008580000739550020050110715112004196444360083500007433550180501116551090)
 (.leaf 4196444360085300007411525190501115771248056974443600842000076265251905011157716630569744436008560000776555018050111657771210592444360084200008814525190501107447779105924443600837000088515002005011070921361059244436008530000883252519050111583176510592444360085800008815500200501107116932105924443600849000077626001601011159731930244544436000090000406045022010110656421704889444360000000004073450220101116748004043974443600018000070054502205011167516720681344436000690000867352519050111716990110592274360082500008734575170501116810039105922743600682000085836251501011075564031059227436006980000866962515050111666561010592444360061700008730650140501115789264)))
 (.node 2 (.node 1 (.leaf 10592190360079300008669625150801106814331105924443600856000087326251508011164141341059244436008620000875260016080110746173810592444360087000008692500200801115913111105924443600839000087215251908011169262051059244436008320000877255018080111666797710592444360088200008096450220701115751348105924443600890000080644502207011165385041059244436008850000799447521030111496096410592444360087000008005475210701115738606002384443600870000077414752108011059491830023844436008320000786052519080111693654600238444360084400007975500200801116587966047154443600885000087404752107011156253230471544436008900000863145022070111716879004715444360062700008164625150801106128106)
 (.leaf 4890444360077100007804625150801106173024048904443600842000084525002005011068373070000044436008560000850547521050110716204100000444360085800007495450220501106845394000004443600807000057084502208011060090670512644436008070000638245022080111565392600420444360062700000567450220301105961563004204443600845000013214502203011058616850461944436008450000133945022070110580686004619444360084500001283450220301106063662046774443600845000013214502203011063266540681444436008450000128441024030110644358506814444360084500001300450220301106207443068144443600875000014174502203011065661330000044436008450000130839025030111532349704397444360084500001293390250301115274247))
 (.node 1 (.leaf 444360084500001238390250301115149913000004443600845000011953902503011161545920439744436008450000123839025030110592078304564444360084500001238390250301105801725045644443600845000012533902503011060536210569844436008450000132539025030111623912905071444360084500001272390250301116267228056984443600845000012723902503011152344480507144436008450000121539025030111619821604788444360084500001229390250301116319291047884443600845000013214502203011059564450569844436008450000134843023030111648339405126444360084500001379450220301106213592000004443600845000011994502203011057953810000044436000000000026145022070110651171100000444360000500000303450220701106510522)
 (.leaf 450360000600000336450220701106049175000004443600005000002294502207011166531960116544436000030000014045022100110625958501165444360001400000140450221001116644067011654443600011000001154502210011155435610285544436000150000011545022100111598551102668444360002000000199450220701115707188026684443600018000001814502207011167991880000053136000250000024445022070110633612100000531360001100000609450220701105871170000004443600000000004014502207011163787290000044436000200000040145022070111522060200000626360001100000395450220701105957231000004443600003000009014502207011062949970000044436000150000085745022070110585467200000444360002100000790450220701106222867)))))
 (.node 8 (.node 4 (.node 2 (.node 1 (.leaf 444360001600000304450220701106156659011444443600000000003574502207011149243720423844436008530000403045022070111553605801914444360002400000436450220701106052835017444443600022000004364502207011164095350149544436000070000164645022070111535552703637444360000500002171450220701115135780042644443600004000036754502207011145499880317544436000260000285845022070111351934503535444360002600003199450220701115286158023604443600247000036204502207011157844210236044436000260000021845022070110639326501713444360002600000181450220701106121629012694443600026000001404502207011164247640126944436000260000012445022070111543216300373444360002600000105450220701106101701)
 (.leaf 1664444360002600000426450220701115716093022794443600104000005164502207011144148410064144436008700000107645022100111404358104530444360080700001563450221001114670760033824443600807000015634502210011159006990098844436008070000153545022070110604074101003444360080700001551450220701105464407023644443600807000015564502207011149094250236444436008070000155645022070110538894602364444360080700002551450220701115424389023644443600771000046814752107011064630990236444436008070000447145022070111650749500000557360080700004236450220801106513768000005573600807000041254502207011056011690000055736007820000212147521100110646746204317444360062100001679475211001106086561))
 (.node 1 (.leaf 5887444360068200008517475210801115414313077084443600689000088854502208011151196540377244436000320000191155018150110626754701485444360002600001577550181501115610808025194443600026000017385501815011148839050417944436000260000128555018150111515075201882444360002600001744550181501115782203029424443600026000017845501815011064750950459544436000550000194755018100110608858700000444360002600001634550181501106497937000004443600026000016645501815011150743860000044436000260000136255018150110630863500000444360083500002325430230701105837769004204443600835000020365002007011157965710042044436008350000270250020080111572286700420444360083500001948310290701116755508)
 (.leaf 10592000360083500002245550180801115207627105920003600835000044946001608011162635541059200036005580000310157517100110732510200000626360025700004925575170801106151546002384443600176000042475251908011163366230023844436003570000235650020080111649757400238444360002600002016550180801116450804002384443600835000017516001608011063108750000044436008350000223260016080111568499200000444360083500002261600160801117128960000004443600835000027876001608011161409660000044436008030000596841024080110587177100000444360070900006310475210801114723572000004443600032000036013502709011059884561059219536006890000280355018090110629755610592195360068900002845550180701106202487)))
 (.node 2 (.node 1 (.leaf 10592195360068900002876550180701116667130002384443600689000029015501807011152791650023844436006890000285655018070110577886200734444360080300002947600160701114978818000004443600858000020536251507011160476270000044436008580000131162515070111482829000000538360082400000796625150701105676842040064443600024000006994502210011145284110368844436000240000063945022070110613614203826444360002400000583450220701115431191026114443600024000005574502207011060285800226044436000240000052945022100111521056801096444360062300000894600161001115823014004634443600623000007266001610011157565120684144436004930000465330000100111332556807612444360062300005300300001001113325568)
 (.leaf 7105444360062300005041300001001113325568041644443600623000028733000015011133255680217144436006230000102430000150111332556802494444360048600000000300001501104539887009134443600486000005343000015011045398870349144436004860000247330000150111332556807778444360048600005215300001501113325568073174443600028000046675751710011134830120588244436006890000677060016010111333030504080444360024700002124550181001106352256000004443600540000025185501810011062853860140344436006890000466455018070110605657301403444360068907875948550181001114649726014034443600689000051685501808011162352090355444436006890000573055018080111528361903554444360068914406999550180101114730779))
 (.node 1 (.leaf 10592359360068900005525600160101106127222105924443600714000074115251905011061533941059238236007140000749052519050110621200910592429360071400006299550180101106815820105924223600714000071665251905011167026751059242236007140000735452519050110577584510592422360071400007596525190101106157309105924223600714000074115251901011157642131059244436007930000741152519050110638259610592444360085800007461500200501106465688105923843600858000075475002001011159232630425444436008580000762750020050110699626210592349360089800007685500200501115905156105923493600845000076265251905011072924321059244436008480000749052519050110747302204196444360077900007762600160501107232453)
 (.leaf 10592444360085307877596525190501115837828105924443600858000088335002005011070947390485944436008490000874350020050110736787504859444360085800008799500200501107358198048594443600858000086945002001011067379281059244436008530000741152519050110708833210592444360085800007547500200101107027595105924443600858000073955002001011168626180512544436008420000737055018050111587394105125444360010000006954475210101106887540051254443600007000040684502201011068463930488944436000000000387645022050110710858506813444360062101518750625150501115017037105924443600576078787666501405011164774851059244436006130000877060016080110684637510592444360068200008768625150801116398792))))
 (.node 4 (.node 2 (.node 1 (.leaf 5125444360088500008812475210801115190641105924443600871000087545501808011062624640471544436008580000864545022080110666702403083444360084800008470475210801115689374030834443600845000086304752105011152861690308344436008580000862945022050111586611700000444360084200008659500200501107151834000004443600689000085405501805011066261880000044436008070000513445022010110670823100000444360080700006495450220101106494861000004443600807000063204502201011164746810512644436000000000625845022010110585994905126444360000000006041450220801106165525051264443600004000061384502208011162041610323644436005580000613845022080110614710303236444360084500004758450220801106433753)
 (.leaf 3236444360084500003070450220301106357494032364443600845000026314502203011166601270323644436008450000263145022030110629040903236444360084500002479450220301106235688032364443600845000018244502203011064308330323644436008450000060845022030110656258903236444360084500001417450220301116355951052404443600845000013544502203011062420360524044436008450000128345022030110615900404619444360087100001300450220301106359695068144443600977000015834502207011060510800000044436008450000307045022030111657418600000444360084500003747450220301106120230000004443600845000027363902503011058588210000044436008450000123839025030110636857604397444360084500001253390250301115298559))
 (.node 1 (.leaf 4430444360084500001293390250301106246887045644443600845000025393902503011065668920569844436008450000223839025030111568789705698444360084500002676390250301106038424056984443600845000019453902503011164382280569844436008450000176039025030111660082305698444360084500003185410240301106642118056984443600832015113064752103011158224530512644436008450000133350020030111577614705126444360084500001261450220301116461223051264443600845000013004502203011155008280569744436008450000121745022030111631507305697444360079303741180450220301106458872000004443600845000011804502203011059897590000044436000000000058945022030110639137900000450360000200000336450220701106297790)
 (.leaf 444360001000000401450220701106660229000004443600000000003364502207011066925540116544436000030000019945022100110618879700700444360001100000199450220701115447162007004443600020000001994502207011153255630070044436000050000022945022070110609146800700444360001300000336450220701115756106000005313600022000007074502207011067754520000044436000200000070745022070110614326900000626360001000000296450220701106480761000004443600025000002674502207011060599020000044436000040000095645022070110639644200000444360001900000857450220701115372343000004443600016000002184502207011153626270000044436000110000035745022070111633646100169444360001600000157450220701116716496)))
 (.node 2 (.node 1 (.leaf 444360000300000199450220701106717139028904443600000000020924502210011146579450297044436000060000168545022070110580586701936444360002200001608450220701106327691027044443600003000020454502207011149950830419444436001340000269045022070110608377702360444360084600002596450220701106406296023604443600247000020204502207011168066360269744436000320000189745022070111570211802697444360005700001725450220701115637649026974443600026000009454502207011067250550171344436000260000021845022070110626667100219444360002600000140450220701106522590005844443600026000002674502210011145988660051244436000260000024445022100111489238401003444360080700001551450221001107295041)
 (.leaf 2364444360080700001556450220701106724471023644443600807000027834502207011070808710236444436008070000395145022070111650657302364444360051700005262500200701107157073000005573600048000059895501807011068189120000056436008070000629845022070111596436600000557360080700006641450220701116271103000005573600807000063864502207011073754970000056436000260000311855018100110741566500238444360002600001322550181501117045680035464443600026000013455501815011075277730897944436006890000887245022080111587255606570444360063400008590475210101115735425046154443600072000024385251907011163389560389944436001000000210052519100111640127204046444360002600001555550181501107053862))
 (.node 1 (.leaf 5177444360002600003306550180801114715916050394443600423000035155002005011144643430399944436006430000290447521050111565347603434444360014400002474575171501107464686045954443600026000023765501815011075277920000044436000260000250655018150110757685200000444360002600002535550181501107314587000004443600026000018815501815011157652150000044436000260000144955018150110682569803428444360002600001621550181501107386457000004443600026000018235501815011075007900042044436001160000167552519100110686377800000626360083500003730600160101116003537000006263600486000037775751708011070063300000062636008350000410560016080110699432200238444360071900005130600160801106680197)
 (.leaf 444360083200003390625150101107900464000004443600835000028896001601011157331300000044436008350000294060016080111650062300762444360083500003067600160801116937936007624443600835000030676001608011069691010076244436008350000358660016080111686725500762444360083500002566600160801115913132000004443600835000030595751708011072062930076244436008450000662235027080111590783800000444360084500006992330280801115003575002384443600845000070603302808011068298720000044436008450000700633028080111520948900000444360084500005736330280701115105296000004553600837000058153502708011064081700000045536007040000640847521070110597940700000444360065600006571500200701114503896))))))
 (.node 16 (.node 8 (.node 4 (.node 2 (.node 1 (.leaf 444360062300006662525190701113959985000004443600623000066185251908011061134530000044436000640000421862515090110714951710592195360068900002912550180701106811237000004443600689000029475501807011070499310000044436006890000296055018070110675400600000449360079000002993600160701115661638000004493600790000029856001607011164876810140444436008580000129262515070110762067101329444360064300000787625150701107218873042434443600006000006994502210011156558370412944436000240000069945022100111565583703688444360002400000699450220701107368890033924443600024000006794502210011159931220000062636000240000068945022100110725167203826444360002400000689450220701107271910)
 (.leaf 3826444360002400000707450221001115825914038264443600024000006894502210011169039780287444436000240000065845022100111694782803301444360002400000594450220701115966634037534443600024000006584502210011152073600420944436000240000070745022100111430598602764444360002400000916450221001114162219031304443600024000009784502210011150398580153744436001620000065460016100111574928706358444360049300004471300001001113325568045214443600493000031793000015011133255680304844436004930000175230000150111332556802901444360049300001515300001501113325568053394443600493000038683000010011133255680727444436006230000504130000100111332556806304444360062300004450300001001113325568))
 (.node 1 (.leaf 4649444360062300004145300001501113325568023214443600623000013183000015011047623730439644436004860000333630000150111332556803585444360049300002352300001501113325568088254443600927000068785002010011144868310509544436011590000590050020100111430835405857444360115900006359500201001114763368087724443600924000063595002010011147633680877144436009240000635950020100111476336807049444360068900006321600160101115244881050584443600689000025866001610011065075570408044436002930000235955018100110643034500000444360051700001820550181001106676360000004443600689000048175501808011154682170355444436006890573530160016010111519177506346444360068916875450600160101106816263)
 (.leaf 9019444360051700006357550180101106467079084104443600656000074384752101011167783910790844436006640000596243023050111646069810592444360068900007190475210501107304469105924443600714036261405251905011164053050707744436007090141606452519050111572621408342444360068200006270450220501115558267082104443600656036259634102405011146951710808444436006430000585841024050111506832606887444360066903626140525190101115985516069604443600639000062995501801011166663020721544436006640000626452519010111607635706863444360071420106227525190501114903130105924223600858000072735002005011078765761059244436008530000768452519050111409810210592444360084200007354525190501115033535)))
 (.node 2 (.node 1 (.leaf 10592444360079000007626525190501116417363105923843600839000075965251905011159913411059238436008450000771452519050110738134304254444360085300007655550180501107392332105923463600832077176835501805011169179111059234636008480000765652519050111618699010592444360085800007570500200501116009782105924443600853000073545251905011072851450419644436008580000762750020050110721938710592444360085800007767500200501115893040061904443600839000087995002005011072502080485944436008350000869450020050111696949404859444360079000008800475210501107497001051254443600803014187804752105011169274340512544436008350000864150020010110747559605125444360084600007273500200501116058467)
 (.leaf 5125444360085300007332500200501116065420051254443600858000073325002005011170286340512544436008580000762750020050111697700705125444360085600007547500200501116026877051254443600849000072075002005011169248720512544436008580000659250020050111613114005125444360000300004442450220101107106746048894443600000000045244502205011075400480488944436008350000870352519050111646294506813444360080703628714625150501106624352068134443600837000087905751705011152309471059244436008670000879550020070110638156405125444360089000008933450220801115233416051254443600878000089025251908011155598361059202936008720000890447521080110639958610592444360087000008841450220801116828238))
 (.node 1 (.leaf 10592444360084200008792450220501115687958105924443600875000087584502205011073674261059244436008480000872345022050111670818710592444360084200008644450220501116571251105924443600853000086614502205011071338891059244436007190000879057517080111575141010592444360077700008623550180801107104827047154443600842000086015002008011158665831059244436008530000864150020080111606061204715444360083600008691525190801107524557047154443600576000086826501408011075137270487644436007710000862355018080111604088504876444360085800008644450220801115838029048764443600862000086444502208011167303920487644436008670000870745022080111654929204876444360085300008775500200301116698848)
 (.leaf 3083444360069800008770600160301107168289000004443600682000087886001605011070244320000044436000140000488345022010110646120705126444360047700004810450220501106313926051264443600000000060414502201011060974890323644436001760000625845022010111632348603236444360082800005945450220501116553253032364443600828000057744502205011154703000323644436008280000499545022080110631450203236444360083500004515450220301106905916032364443600837000041724502203011166121790323644436008390000562945022030110695839703236444360084400004253450220301107316862032364443600845000021974502203011065212070323644436008450000201845022030110675380905240444360084500002778450220301106517151))))
 (.node 4 (.node 2 (.node 1 (.leaf 5240444360084500004030450220301106373926052404443600845000040304502203011064676950524044436008450000253845022030110662217504619444360084500002609450220301106911218000004443600908000019504502203011155612310000044436009180000231645022030111538582600000444360103500003127450220301106345540000004443600845000030514502203011065376080000044436008450000376939025030110625107700000444360084500003375390250301116271833044304443600845000018093902503011064726000443044436008450000303039025030110686508500000444360084500003628390250301116529143046574443600845000012834502203011149928880465744436008450000124545022030111627089604657444360084500001217450220301115011490)
 (.leaf 5126444360084500001199450220301114916005046574443600845000011804502203011152639630000044436008450000111545022030110627408600000450360000000000261450220701106170585000004503600016000001994502207011069267850000044436000070000022945022070111505881800000444360000700000229450220701106517231000004443600000000004014502207011066035210116544436000040000038345022070111563352101165444360001600000140450220701116621318011654443600009000001574502207011073775450070044436000000000047045022070111530811203276444360001000000401450220701115330320032764443600022000005904502207011152984760005244436000160000019945022070111637732000052444360000500000199450220701115237626))
 (.node 1 (.leaf 444360000700000901450220701107027361000004443600019000005584502207011070942440000062636000240000019945022070111636896200483444360000700000218450220701116632307000006263600026000002444502207011152319160000062636000090000029645022070111665302500372444360001400000181450220701106765124000004443600008000001574502207011156372650000044436000090000015745022070111579584300391444360000600000287450220701116470126003914443600000000008584502207011152830920349444436000000000215245022100111583797303125444360000000002126450220701115847353031234443600007000020204502207011157145710402044436000000000236945022100111635323305340444360087000004080450220701115336105)
 (.leaf 4117444360065600002126450220701106823622026974443600057000019524502207011069784180171344436000260000215245022070111677123303405444360002600002152450220701115597133038704443600026000034214502207011154568160089544436000320000077445022070111545966100677444360002600000328450220701114710635003084443600026000001994502210011145805750025944436000260000015745022100111537694900521444360080700000529450221001115576589000994443600807000005834502210011152612050003944436008070000055745022100111532003101529444360080700000622450220701114941898038724443600807000015184502210011143878810116744436008070000155945022100110741739702184444360080700001551450220701116119912)))
 (.node 2 (.node 1 (.leaf 2364444360080700001556450220701107741185023644443600807000064844502207011075362750236444436000260000641455018070110760009100000564360002600004134550180701107333989000005643600026000069995501807011163933080000056436006340000695447521070110774641500000564360080700006997450220701107607292002384443600807000065424502207011080886970390044436000260000148255018150110752507406978444360068900008099450220801117064036085914443600689000087634502208011160384720597144436008440000829947521010110784625005049444360002600002228550181501107562261048824443600026034121145501810011152965510363444436000260000125155018150110743010006152444360002600003864550180501113872861)
 (.leaf 4792444360068900006737450220501115489043055464443600689000069664502205011148784900544944436006890000773145022050111520700308049444360068900008665450220801115899573092944443600072000089736251508011151800560649744436000190000849565014050111594486707310444360002100008401625151501115435830084344443600021000085726251515011162003230701444436000210000798562515150111605697905254444360002200004553625151501116539164068694443600020000064926501415011161784660493644436000260000528855018150111614875504936444360002600003539550181501117732484059944443600026000029235501815011162713420342844436000260000203855018150111702878900420444360002600002093550181501107944261))
 (.node 1 (.leaf 420444360002600001922550181001107777404004204443600032000024565501808011157940810000044436003570000192350020070110737653000000444360002600002634550181001107416669000004443600835000065806001608011162083970000062636007990000379060016080110752321600000626360003200003765550181001116966411002384443600026000034585501808011075744450000044436008190000409457517010111629029100000444360083500003789600160101107739826000004443600835000031376001601011165115890076244436008450000699233028080110758635900238444360084500007041330280801115759963002384443601016000071693702608011075669120000045536010790000720037026080111676712700000455360110700007245390250801107584641)
 (.leaf 455360094200006852350270801107608377000004443600836000059703702601011077098120000044436004860000507350020080110734672710592195360068900003529550180901107706587105921953600689000029675501809011164403021059219536006890000281755018090111764892210592195360068900002938550180701107842907000004443600689000029605501807011170352780140444436006890000289155018090111630649501404444360068900002901550180901117811717047664443600689000028915501809011076089300476644436006890000284555018070111695218700000444360068900002817550180701116014084000004493600689000028665501807011068514540140444436006890000292855018070110763156101404444360080700000796625150701107459632)))))
 (.node 8 (.node 4 (.node 2 (.node 1 (.leaf 1329444360066400000738625150701107400145000006263600024000006994502210011075251650382644436000240000062945022070110753977103301444360002400000594450220701107384305028824443600024000009364502210011160864290241644436000240000086745022100111438408400628444360002500000380550181001117025595009294443600024000003574502210011134776340808544436006230000684630000100111332556806512444360062300005661300001001113325568054594443600623000050213000015011133255680477444436004860000294930000150111332556806107444360048600003896300001501113325568080454443600815000084826251510011148296290804644436008150000848262515100111482962905990444360115900007685500201001114780193)
 (.leaf 5268444360115900006113500201001114371948057494443600689281153776001601011142277690534644436003570000507457517100110665937604771444360068900002816575171001107269063014034443600689000048175501801011167904451059243736006890341524955018010111575816110592437360068900005069550180101116818351105924373600689075256166001601011167891431059243736006890000555062515010111690418310592444360068901215640625150101107192220070514443600825188964515751705011071973200727244436008241539647857517050111539389809606444360002800006607650140101114903903094364443600028000065556501401011144246070994744436000400000727065014010111440256109556444360016500007445650140101115042639))
 (.node 1 (.leaf 7332444360052800005788450220101115824055069674443600450012156644752101011157597560762744436006050000573055018010111652667606582444360061300005943550180501115474360070104443600714055162645251905011149380220696344436007140000749052519010111557327007285444360071425327596525190101115378440105924223600714330476565251901011161085931059242236008450000727350020050110744668410592384360084900007547500200501107846232105923843600951000076575002005011079157941059238436008460000773952519050111648118304254444360084901217815575170501115977768042544443600867000077155002005011158061571059234636008480000765750020050111653533310592444360085300007547500200501117234881)
 (.leaf 10592444360083700007683550180501117122985105924443600807000077115751705011078699891059244436008580000759850020050111768386610592444360085800008851500200501116573380105924443600858126488155002005011081495800619044436008480000874350020050110807985706815444360084200008743500200501117424499048594443600832055187435002005011160731220485944436008360000881550020050110761818105125444360002500006298450220501107751608051254443600002000047444502205011167464010681444436000050000466245022050110773813806814444360059200008836450220501116392458048894443600832000088344752105011081023490681344436008250000882147521050111663559506813444360084600008887500200501115428599)))
 (.node 2 (.node 1 (.leaf 10592444360084500008839475210801106824192105924443600879000088984752107011154555021059202936008850000888545022080110673437010592444360082500008872450220501116764915105924443600845000088994502205011073343711059244436008620000887245022050110736702710592444360084200008576450220501107555621105924443600832000086934502201011164916971059244436007790000873555018080110746554901404444360084200008659500200801107496115048764443600793000086715501805011075915220487644436007790000873850020050110748635103083444360077100008722500200501115314469030834443600682000088085501805011069994570000044436004310000472845022010110733181000000444360001400004570450220101115877585)
 (.leaf 5126444360000000006041450220501107005344051264443600000000060414502205011164203050023844436000000000604145022010111575554905126444360000000006041450220501106566277032364443600000000061384502205011068658990323644436008070000458445022050110649050005240444360084500005939450220301107414059052404443600845000030864502203011068122810461944436008450000315645022030110698473100000444360084500002768450220301106592235000004443600845000049954502205011074275980000044436001040000294145022050111633935700000444360084500003046390250301115344571000004443600845000029173902503011069898540000044436008450000099045022030110727834705698444360084500000741450220301106591511))
 (.node 1 (.leaf 4103444360084500000831450220301106512557039824443600845000008054502203011162561980398244436008450000083145022030111622168504657444360084500000831450220301116528748046574443600845000008054502203011163773270465744436008450000086745022030111627166804657444360084500001217450220301115073212000004443600845000011494502203011163091460000044436008450000114945022030111641421700000444360084500001115450220301115306736000004443600845000011494502203011162796800000044436000050000033645022070111535194001165444360001100000471450220701107168876028554443600400000012234502207011167794690266844436000000000057245022070111548167703276444360000600001616450220701106776559)
 (.leaf 52444360001900000140450220701106759985004834443600026000006094502207011155185400085244436000170000032845022070110666084100852444360000500001199450220701106608065003724443600011000009294502207011066705230505144436007820000377045022070111557997004989444360077100003709450220701117547586041174443600528000023694502207011166343680349044436002210000221845022070111570474703500444360054900002247450220701115007563047434443600072000040304502207011156019270282144436000260000234245022070111513746701700444360002600001356450220701114706915027054443600026000018394502207011155329520319644436005680000283645022070111521738900615444360002600000328450220701114658906))))
 (.node 4 (.node 2 (.node 1 (.leaf 919444360002600000367450221001115814197011094443600894000005294502210011151675950137444436008070000059445022100111466499300728444360080700000608450221001115534303020774443600807000006294502210011162911760428844436008070000156345022100111628976703269444360080700001563450221001116666007043344443600807000015634502210011155131790430544436008070000155645022100111604240704596444360002600004818550180701109436900050764443600026000055165501807011163217590503244436000260000363555018070111717307405032444360002600006639550180701116011240002384443600585000037995002007011077567080469144436000260000242455018100111579229605803444360002600004539550181001115783762)
 (.leaf 8057444360002600007843550181001115881478053264443600982000080984502208011168881370729444436008780000734050020070111617369004283444360002600002457550181501116196878025864443600026000018145501815011157482680406144436000260000236155018150111636496506018444360002600003167550181001115015348053124443600623000058844752105011157516450999344436001900000898365014080111552451109057444360002600008490550181501116403241054144443600022000034576001615011169081820572244436000260000312055018150111632745400000571360002600003201550181501107992403000005713600026000017815501807011078298470000044436000260000199955018100111575900104173444360002600001549550181501115968385))
 (.node 1 (.leaf 444360002600001947550181001117032090000004443600026000024005501810011079286660000044436008350000311260016070110781194000000626360083500003606600160801108310496000006263600026000035805501808011076276320023844436000260000345855018100111761763300000444360006000004829550180101108418258007624443600835000029406001601011170988070076244436008350000369660016010110777170900762444360113800007206390250501116209531007624443601107000073173902509011079276260000057436009230000708639025010110756144700000574360090100007114370260101107974607000004443600779000062294102401011081104440000044436009280000668462515010111600012601404444360002600005228625150801108213137)
 (.leaf 1404444360002600005165625150801116549626014044443600664000036185751709011170410110140444436006890000319555018090111661345201404444360068900002876550180901116380373014044443600689000028565501808011081669510476644436006890000280355018090110801553204766444360068900002876550180901116231818047664443600689000027705501807011173324110000044936006890000283155018070111710048500000449360068900002866550180701107465353014044443600689000028175501807011077045040140444436006890000231355018070110786794710592313360068900001566575170701108013554000104443600682000007566001607011083140360132944436006560000081870012070111734606800273444360064300000768700120701108308926)))
 (.node 2 (.node 1 (.leaf 3392444360002400000721450220701108015492033924443600024000007324502210011080432600000062636000240000072745022070111651796400000626360002400000738450220701116114105000006263600024000007214502207011080535600131744436000260000048657517100111591380300257444360002600000334575171001107520452006254443600024000002964502210011147399650766044436004930000651830000100111332556805005444360049300004095300001501113325568046274443600493000035093000015011133255680529744436004930000343930000150111332556808053444360081500008482625151001114829629080554443600815000084826251510011148296290548044436011590000746150020100111332556805845444360068900005450600160101116360103)
 (.leaf 5044444360068900005344600160101115865527050104443600664000029486001610011079718130486444436005850000351157517100111633773104843444360068900003348575171001107956108061714443600689411170155751701011159048160583044436006980338541155018010111601449910592437360068900005640625150101115917443105924373600689000054666251501011158949631059244436006890000571762515010111635977510592444360084535616267500200501117373624105924443600865152262315002005011172884060600044436008583835611350020050111706203206469444360083623886299550180501107959168082254443600586000064785751705011153717430878844436002740000769965014010111569332609654444360002801206607650140101114225019))
 (.node 1 (.leaf 9044444360002800006474650140101116118375088204443600624000077824502205011158639370709044436008280000790370012050111651631907036444360082800007764575170501108172966091684443600828230977375501814011170607101059242236008282068779350020050110793537610592422360082810907740500200501116571704105924223600828092876855002005011083353791059242236008280928765652519050110812199810592384360082803387948625150501108272928105923843600837000075445751705011164109901059238436008580000726539025050111618937910592346360087900007302390250501108334156105924443600832125376864752105011178712751059244436008350000762947521050111644661710592346360083700007548475210501116517762)
 (.leaf 10592444360084400007601475210501108425377054024443600839000075724752105011165329940540244436008350000867847521050111629269910592444360085800008743500200501116381759105921613600856000087995002005011167537361059216136008580000881550020050110799166910592161360085309288743500200501108159068061904443600853000087435002005011174067900619044436008490120879950020050111665439306815444360084600008743500200501116162142068154443600858000086945002005011081609340681544436008580745874350020050110793595705125444360085815228815500200501107834325051254443600828000087245501805011076886260512544436008280000735845022050111699426105125444360082800007273500200501116499776))))))))))
 (.node 256 (.node 128 (.node 64 (.node 32 (.node 16 (.node 8 (.node 4 (.node 2 (.node 1 (.leaf 5125444360000100006426450220501108389174051254443600009000065424502201011173495280681444436000090000586545022050110807298604889444360082800008801450220501108228057068134443600844000088724502205011069575290512544436008320000885345022050110746115104641444360082800008885450220501107340418105924443600842000088534502205011075422151059244436008620000888545022050111702474610592444360083600008853450220501107407530105924443600828000088534502205011160042261059244436008440000880145022010111590686610592444360083700008841450220101107844676105924443600845000087554502205011164097141059244436008320000870645022050111578255310592444360084400008692450220501107464333)
 (.leaf 10592444360080300008738450220501115738626014044443600836000086745002005011162902910140444436008440000886250020030110788037804210444360085600008775450220501117557480042104443600828000087554502205011165001010421044436008070000875545022050111749184004210444360084900008946450220301107972303030834443600837000089764502203011168804200000044436008030000896847521050110735055400000444360000700005945450220101117566095051264443600000000058544502201011155506460023844436000000000594545022050110772756200238444360000000006382450220101107613437002384443600000000063824502205011169123530000044436000030000604145022050111685549903236444360013400005945450220501106500663))
 (.node 1 (.leaf 3236444360013400006138450220501106852492000004443600807000056204502205011071460290312144436008070000678045022050111741229603121444360080700004949450220501117085743031214443600807000047114502205011161002080323644436008240000444845022050110746485303236444360083600004448450220501115281674032364443600845000055214502203011069769260323644436000000000457045022030110724613205240444360004800005158450220301107188555052404443600742000039564502203011073254270524044436008450000315645022050110740689804619444360084500003226450220501115417081063624443600845000033004502203011076475490636244436008450000328045022030110759754800000532360000500001181450220701106761016)
 (.leaf 532360000000001111450220301115265521032864443600400000007414502203011067914680328644436008450000159645022030110693709503982444360084500001794450220301106879129000004443600845000012614502203011150358230000044436008450000126145022030111529230304657444360084500001199450220301116422523000004443600845000011494502203011151937790000044436008450000111545022030111526400204646444360084500001199450220301106894182046464443600007000006444502203011072273270000044436000000000043245022030111648054104646444360000000000470450220701107324927027574443600001000008574502207011159127270116544436000000000100645022070110711013202668444360032200003699450220701116733015)))
 (.node 2 (.node 1 (.leaf 3276444360024700002346450220701107419993030324443600807000036204502207011146163650085244436002830000352745022070110728939304842444360097200003950525190701115761197045844443600825000030564752107011159257300468544436004670000289845022070111580505905366444360010400005665450220701116834465061754443600026000053504502207011080611650719044436009840000550245022070111511104704223444360002600002444450220701114468428029384443600026000021264502208011150257300349744436000260000330545022100111560431901010444360002600000322450221001115814197045514443600026000062895501810011077156480503244436001830000592452519070111794942705090444360071900007520475210701108365761)
 (.leaf 4958444360068200003782475210701107856948087734443600026000081765501807011159267720562444436000260000299255018050111510957905474444360002600002725550181001115504520043794443600026000025055501815011151093850387944436002280000227655018150111592680910592444360001900009046650140501116129215101824443600019000090306501405011164372650000057136000260000164955018150110849452800000571360002600001653550181501117061033041734443600026000021545501815011078878430360344436000260000170655018150110796012800000444360002600002160550181001116141352000004443600134000061225501808011159892961059239436008350000388960016080110774171900000626360083500004162600160801118030125))
 (.node 1 (.leaf 626360006000004134550180701107723845000004443600032000034585501807011079111100000044436006170000437750020010110808624500000447360011300004644525190101108044286000004473600835000050934502201011081467940076244436010530000742041024010110845373803555444360109800007443410240101116929413007624443601101000072003702601011173544320355544436010530000725937026050111629384400762444360105300007169370260101117344353035554443601086000072003702605011172143580355544436010310000715337026010111749080903555444360093700006992330280101108241507035554443600845000070413302801011083859550355544436010440000722841024010111733892700000574360114100007523450220701117241460)
 (.leaf 574360114100007602450220901117040773000005743601141000073584502209011175914860512644436010220000735845022010110863352001404444360002600005095625150801107961050047664443600689000028665501807011077526080000044936006890000269555018070111675046101404444360068900002803550180701107942046014044443600689000035425501807011172658521059219236006890000357555018070110803214510592192360068900003682550180701116176726105921923600689000036315501807011163486311059231336006890000360755018070110799088910592313360068900001856550180701117600185000104443600689000009725501807011080115070431444436000240000072145022100111722313804251444360002400000707450220701108368236))))
 (.node 4 (.node 2 (.node 1 (.leaf 3800444360002400000707450220701108497870038264443600024000007274502207011080616530384544436000240000070745022070110791645104476444360002400000732450221001114390640012904443600026000004505751710011079759340013044436000250000014452519100110765112100231444360002400000186450221001115447404082694443600870000068713902510011157491731059244436008700000751339025100111471891606530444360068913745987600160501114782026058184443600686000067706001605011157869890566944436006890000433560016100110815870705004444360068900003662600160701108245089048434443600689000040065501801011082745970646344436006892980577752519050111611796010592437360071400005635525190101116592189)
 (.leaf 10592444360071912385777525190101107945235073224443600885000064264502201011142785480749944436006780000639057517050111559458608568444360045400006478575170101115182316085114443600828033590377001201011172397810880444436008280000894445022050111373503608663444360082800008931450220501115828451082284443600828354577184502205011083891210790044436008280335781755018050110834540308682444360082807357717475211401117467093074934443600828073577675002005011163481580787344436008282053776750020050111635289307473444360082803357926650140501116405389074624443600828011977675002005011085646181059242236008280000779350020050111640210310592422360082810787767500200501108358206))
 (.node 1 (.leaf 10592422360091600007715500200501108389659105924223600846150775204752105011082275251059238436008280000752345022050110907674410592384360084200007421430230501108472213105924443600828000087634502205011085247181059216136008420335762947521050111789017310592444360082800007523450220501117751914105924443600828000087104502205011168391111059244436008350000867847521050111807643610592161360084200008780475210501108495149105921613600832000088004752105011175981841059216136008280917861445022050110801084505125444360082800008528450220501107861513051254443600828054185284502205011171420410512544436008281742735845022050110770048505125444360018332486641450220501108506223)
 (.leaf 5125444360001100006426450220501108218903068144443600000000060414502205011083744450681344436009290119878145022050110748870006813444360082800008836450220501107642337051254443600836000088724502205011153407450512544436008620000888545022050110757221505125444360087900008957450220501106908483051254443600890000089674502205011072967361059202936008620000880145022050111582835310592029360092900008836450220501117011920105920293600917000088724502205011158993060464144436009690000888545022050111575818104641444360086700008853450220501107729797105924443600844000088534502205011076385700423644436008960000888545022050110782789601404444360068200008974600160301108298589)))
 (.node 2 (.node 1 (.leaf 1404444360083500008898475210801117391111014044443600856000088854502203011082726000140444436010150000888447521050110809804404210444360083200008869500200501116635840042104443600849000089574502205011082407930421044436009440000894445022080111640356104916444360080700008916450220501116273813049164443600885000088854502205011177215150000044436008070000887245022050110803484600000444360079300008800475210101107846846000004443600627000087006001605011081087360023844436000000000585445022010110797079900000444360005500006495450220501107647016000004443600605000062584502205011077244140000044436008070000634745022050110800191203554444360080700006846450220501116379188)
 (.leaf 3554444360080700007072450220501116372275031214443600824000050534502205011082036260355444436008390000550245022050111628114103554444360084500006876450220501117397258000004783600000000061914502205011070761560323644436000000000569845022050111661506205240444360000000005406450220301107465380052404443600000000054744502203011073391920524044436001570000488245022050110700380800000444360013400004973450220501115778495063624443600028000048574502205011077620570636244436008450000368645022050111712915900000444360001000003551450220801108073577000005323600003000019244502207011072597060000053236000100000047045022070111643062700000545360000900000336450220701107556856))
 (.node 1 (.leaf 545360000000000573450220301107335849000004443600157000006144502203011076441380328644436001340000170245022030110744075903553444360084500003736450220301115604109039824443600845000025964502203011153610490355344436008450000071445022030111660486004657444360084500000741450220301115551171000004443600845000007744502203011068841400000044436008450000124545022030111694336004646444360028300001115450220301116629258046464443600019000006144502203011070962770464644436004770000061445022030110716351000000444360000000000367450220701107236832046464443600000000005584502207011158040510377544436001340000219545022070110781237609254444360080700008632450220701115688373)
 (.leaf 6949444360080700004883450220701115602518060914443600019000033714502207011142046060692444436000000000426245022070111464838206290444360000000003544450220701115860645065274443600028000039724502207011152751120544544436010180000426245022070111478274006453444360003200003972450220701114836277052014443600682000044084502208011146096860352844436008070000289045022080111423882201770444360000000001952450220901113924489021034443600000000025974502207011158612790191544436000000000342145022070111490985001945444360019200003199450220701115278235018094443600013000019524502207011154605360246944436006010000346845022070111473638802490444360093700003527450220701115156458)))))
 (.node 8 (.node 4 (.node 2 (.node 1 (.leaf 2566444360081900003107450220701114979303028034443600226000031074502210011138480970483344436009840000395052519070111590582704693444360020700004096475210701107866325049794443600026000021524502210011075949440768144436009840000573145022070111615831703773444360091900002473450220701115252522030214443600157000022854502208011156295520491244436000260000413455018100111579682105207444360002600004399550181001115838178063444443600026000069415501810011153411270513344436007710000645747521100111637097504956444360080700007602450221001116863243052924443600807000075744502210011166877140495844436003570000410650020070110790071205379444360002600004242550180701116132448)
 (.leaf 4860444360002600004354550180701116093416068894443600026000070775501815011170832710431044436000190000335765014010111622347203956444360002100002822625151501117273724012974443600026000018315501815011169267050331744436000260000208455018150111626069805306444360019800003351525191001116133900056334443600026000030205501810011163108200408544436002210000223352519150111599228503153444360040000000000000031501116500060105923943600601000040536001608011082060660000056536006860000416260016080111616340700000444360017600003814550180801117158730000004443600349000035675002008011161519590000044436004230000318250020080111595139100000447360061700004325500200101108720066))
 (.node 1 (.leaf 444360005500003823575171001117159174007624443600226000038396001610011077786740076244436006050000374062515010111598980300762444360059200005860525190101116287689007624443601141000073373902505011178478550355544436010860000724037026050110781443203555444360084800006529250320501116331020035554443600845000070313102905011176955460512644436009900000720541024070111595276805126444360103200007146410240501116416952051264443601035000074394302305011083333360140444436011330000679465014010110773628901404444360068900006588625150901107734042014044443600689000064856251509011169520580140444436006890000592662515090110859860504766444360068900006141625150701108121351)
 (.leaf 4766444360068900006537625150901116417670105923343600689000045345501807011082369631059219236006890000366055018070110804685200629444360114100001153450220701115496786000534443601141000011624502210011162506190466844436000240000075445022100111589787604289444360002400000732450220701116182621038004443600024000007214502207011083471660000062636000240000072145022070110805750100000626360002400000738450220701107902256048964443600024000016724502207011160666320106044436000240000011747521100110803468100738444360002400001154450221001115879367016134443600024000015704502210011159076590720144436007900000543257517100111565358206580444360093400005672575171001114761016)))
 (.node 2 (.node 1 (.leaf 7688444360094505357090430231001115465508090064443600870000072063902510011151306461009644436008700332737939025100111381278207015444360022100003740625151001108829987064004443600442000042046251510011162277140585144436006820000478360016100111610099805438444360068900004667575170101116242319059424443600689000053935251901011161492470719844436005270000608752519050111608396306417444360082400006001525190501116374067062204443600709000073235751705011161385171059243736006980000596457517050110752185810592437360077109076264525190501107596377060994443600842369661705501801011090949410722544436008621225642350020050111601862907191444360064400005930450220101115781720)
 (.leaf 7967444360082800008954575170501115765171083984443600828033290196501405011167251830877944436008280000897850020050111556851608809444360082800007820450220501108482826085424443600828072977424502214011082304731059244436008280000774245022050111623222310592444360082800007685500200501107629478074624443600828000077954752105011082009101059242236008280000743847521050110833821910592422360082801187684525190501116340402105923843600828106677395251905011174760431059238436008280000762652519050110863098210592384360082800008836450220501116329431105923843600828000088014502205011088441011059216136008621066881647521050111773539410592444360085300008800475210501117821203))
 (.node 1 (.leaf 10592161360087009078800475210501108407004105921613600828000086654502205011087174840540244436008280332878145022050111741016810592161360082800008818450220501117501790105921613600828000088335002005011163967900540244436008280000883062515050111742900010592161360082803328763450220501108101660105921613600828053587634502205011081718321059216136008030535735845022050110814847706815444360082813607390575170501108293167068154443600828011886715501805011159428180681544436008280118862255018050111708167606815444360082810668671550180501116080026051254443600828072985884752105011161779110512544436008280000717445022050110798067205125444360082800007174450220501117019989)
 (.leaf 5125444360082800007235450220501108139456051254443600009000049844502205011086308871059240836000091831654245022050110819797010592408360095800008818450220501116169368068134443600919000088534502205011089109640681344436008670000880145022050110807314805125444360084600008818450220501107667673105920293600890000089444502207011073760750464144436008620000894445022050111547386410592444360084200008885450220101115158718105924443600938000089164502201011158584150423644436009340000888545022050110825766204236444360084800008801450220501116296374042364443600837000089164502205011082997940140444436008280000880145022050111657464501404444360097500008930475210301108187017))))
 (.node 4 (.node 2 (.node 1 (.leaf 4210444360099400008957450220501116306394042104443600848000089574502208011163650690491644436008250000880145022050110776915900000444360079000008588475210501108198243105924443600000000060414502205011174534380000044436000000000594545022050111589269600000444360000000006041450220501107904357000004443600807000068464502205011081255620355444436008070000684645022050110833736803554444360080700006542450220501108366320000004783600016000056614502205011077737700524044436000000000571445022050111646208505240444360000000005474450220301107639233052404443600000000057814502203011170078270524044436000000000525345022050110740910200000444360000000005178450220501117104690)
 (.leaf 444360000000003296450220801107731071000005323600000000021524502207011072794890000054536000030000170045022070110770664400000545360001900001041450220301116024631000004443600000000020734502203011077455410000044436000040000231445022030110798279303553444360000300000589450220301107522614035534443600704000030514502203011154506860000044436006690000064445022030111603854804646444360000000000644450220301108105420046464443600000000005894502203011075374730000044436000000000051845022030110733976102757444360000000001424450220701107863810027574443600017000017204502207011076873940388244436005490000254145022070111574768502671444360000000002342450221001115190835))
 (.node 1 (.leaf 2027444360000000002218450220701115330861028514443600000000022184502207011157306190253544436000000000247445022090111482178804699444360002600001666450221001108026721044614443600134000014044502210011083542700832044436009840000600745022070111574898702732444360093800003771450221001116428533029854443600033000020924502210011158412480340744436000000000212645022100111492523605264444360078800006426450221001116401729072544443600807000077424502210011143749870944944436008070000861245022100111643388305180444360066900005459475210701108210711049584443600334000039225002010011159186580427744436000320000229655018100111534728004997444360002600003088550181001115789803)
 (.leaf 2459444360098200003139450220501115330469030824443600982000042574502205011150316010387544436009820000490445022010111556949603786444360098200004662450220101116060189048094443600026000033635501815011153939220489344436002320000480152519150111548631304287444360068900003489450220501115269144047654443600689000058654502205011165210470444844436006890000377145022010111605575704487444360068907213911450220101115800221040094443600026000019185501815011080977771059239436000260000211455018100110830827500000565360002600003814550180701108128508000005653600334000055165501808011158894780000044736004230000531255018080111569957700000565360052800002793575171001107798312)))
 (.node 2 (.node 1 (.leaf 447360003200003524550180801107994621000004473600033000035025751710011078292350076244436001000000277160016100111576388902445444360011300002193600161001107889494024454443600634000065543702601011083342020076244436010290000763441024010111643162803555444360114100008142390250501108264217044654443600997000080383702605011175692450512644436007930000861039025050110840566801404444360068900005072600160101116080795014044443600689000064256251501011085989940140444436006890000648562515090111638347010592444360068900006588625150901116171484105924443600689000065706251510011180250220476644436006890000648562515070111636205310592334360068900006425625150901117397024)
 (.leaf 10592334360068900006512625150901116152638105923343600689000063626251509011076397751059233436006890000633457517090110775309310592444360068900004908575170901115714951105924443600689000048365751707011169126331059219236006890000368155018070111748808610592313360068900003034550180701108125004105923133600689000029125501807011174138721059231336006890000296055018090110839645401576444360068900002960550180701108137521001164443601141000011624502207011084440050443244436000240000072745022100111593311404671444360002400000743450220701116059348031424443600024000006494502207011083535560409744436000240000073245022070110842537404097444360002400001795450220701108217582))
 (.node 1 (.leaf 626360002400001978450220701108059844043944443600024000027724502207011171331470439444436000240000272145022070111524938904849444360002400002847450220701116025168046864443600024000034614502207011157383610457144436000260000270757517070111696551603829444360002600001854575170701108160177010604443600026000006165751707011173191410168544436000260000039657517070110811008002806444360002600002191575171001116301411048104443601159000055225002010011138812760612644436010510000597250020100111573655907185444360101103296231500201001115940189049274443601099000055465251910011160648080451744436009530000509157517100111722709004938444360106800005635525191001115783108)
 (.leaf 6343444360097300005612500201001116464908085964443600932000074014302310011159103701000244436001130000601030000100111600450006592444360002800004884650140501115849432067674443600689225960015251905011166385140611044436008850000601045022050111465331410592437360087803296329475210501115434388105924373600858232363595002005011157394361059243736008242741745357517050111583772610592228360083512096299550180501116170391085094443600659000076864752105011153490040890744436008280000895745022050111632036008133444360082807218955550180501116293434088654443600828011789684752105011158729751059244436008280000897645022140111569145008882444360082800008957450220501115256128))))))
 (.node 16 (.node 8 (.node 4 (.node 2 (.node 1 (.leaf 8542444360082800007791550180501108599101105924443600828072176855002014011085073861059244436008280000778365014050110825463010592444360082800007569525190501116609616105924443600828000076575002005011169426241059242236008280000771747521050110847066710592422360082800007523450220501108706667105924223600828217575234502205011164288341059242236008280000766045022050110849332410592384360082800007523450220501108776492105923843600828011776275002005011087082111059238436008280000759850020050111795478910592384360082808978852475210501108055317105923843600828000088014502205011084624981059216136008280329871045022050110895536410592161360082813408710450220501108483983)
 (.leaf 10592161360082800008694500200501108365637105921613600828252389376251505011173980521059216136008280530892362515050111714148910592161360082813407765550180501117417171105921613600828159476855002005011159754711059216136008281054733250020050110816076406815444360081901177273500201401116542884068154443600825032971164502205011079188620512544436008280117717445022050111710120605125444360082807217174450220501108032426051254443600010000051734502205011179698861059240836000053027564845022050111635866206813444360096000008872450220501108250294068134443600844000088534502205011164619121059202936008320000895745022050110960554110592000360083600008944450220501108968370))
 (.node 1 (.leaf 10592029360086200008976450220501108283135105920293600849000089444502205011175389720464144436008560000891645022050111634866204641444360088800008885450220501118438259046414443600862000089164502205011081742280464144436008280000895745022050111895148804641444360083600008976450220501116262831046414443601024000088994502205011177396980423644436009410000893145022050110861359804236444360101100008781450220501108337206042364443600897000087814502205011163100880423644436009150000891645022050110797170801404444360092300008916450220501108325787042104443600766072189145002005011084265460421044436008420000891450020050111630477504210444360080700008836450220501116225603)
 (.leaf 4210444360083500008801450220501116167203048914443600856000088184502205011173249140489144436008900000883645022050111729495904916444360088500008853450220501116657358000004443600777000088014502205011083806770000044436008070000507845022050110823377300000444360080700005216450220501115796248035544443600807000062554502205011081348900355444436008070000673645022050110796941903554444360082800005215450220501108525963035544443600845000068464502205011174672910000047836000040000619145022050110830937205240444360000000006043450220501107396319052404443600000000062264502205011078206600000044436000000000583245022050110812081700000444360000000005293450220501117311537)))
 (.node 2 (.node 1 (.leaf 444360000000003166450220701107978163000004443600000032935854502207011156329730000062636000000721233045022070111577263400000545360000000002241450220701107919129000005453600005000008574502207011157599520000054536000140000014045022070111750648300000545360001700000470450220301108242646000005453600000000003834502207011081509420000044436000000000038345022070111701301100000444360000000000471450220301115971574000004443600004000017824502203011083558160398244436000000000234245022030111690635103554444360000000001660450220701108379400000004443600000000003834502203011169334030000044436000000000018145022030111580963900000444360010400000157450220701115636839)
 (.leaf 444360010400000157450220301116800796000004443600017000001404502207011156554440000044436000110000019945022070110778156600000444360000000000573450220301117516110046464443600000000005894502203011080338960464644436001570000058945022030110788658604646444360000000001143450220301107916562046464443600000000003454502207011077341430464644436000020000117445022070111663918404852444360048600003355450220701115769938067184443600939000049995002007011160196450611944436000250000203545022070110834067903217444360001600000304450221001108093164094094443600984000062514502207011158424180727544436007900000885247521100110807782805180444360013600008473525191001117118202))
 (.node 1 (.leaf 7176444360002600007625550181001115847655075484443600026000071995501810011160006960511844436009820000425745022100111586548606218444360002600003540550181001115787690061874443600026000033605501810011158892360605644436003840000385252519100111581866805298444360091100008208500200501114869923052114443600689000065094502201011165007340436744436006890000294445022010111581888804470444360066900003554475210501115991863046594443600689000036564502201011160554410403344436006890000365645022010111621884604009444360002600001169550181501108206243000006263600026000017865501815011085068620000062636001920000334557517010110830772800000565360034100003595575170101117412613)
 (.leaf 565360042300002962575171001108198713000006263600069000026345501810011083042060000044736006050000392847521010111712739900000626360051700003122500201001116347286024454443600247000027405251910011080993450244544436003070000731652519010110822989900762444360096000008121430230101108132443007624443601045000083464102401011082227900446544436009510000856343023010111637119204465444360103700008522410240501108842945051264443600771000087494502205011088338390512644436010550000842347521050110861664305126444360103700008225475210501108436152014044443601089000085304502201011086446520140444436010370000853045022010110866623501404444360083900008446450220101116329461))))
 (.node 4 (.node 2 (.node 1 (.leaf 1404444360062300008556500200501116612611014044443600689000063976251501011087219290455944436006890000657062515090111785640104559444360068900006570625151001108554930105924443600689000065126251510011163874780476644436006890000636262515100111767393004766444360068900006485625150901117735052047664443600689000065126251509011166022360476644436006890000642562515080111838148010592334360068900006636625150901108529601105923343600689000049856001609011156116771059244436006890000498560016090111756814110592444360068900005050575170901108404384105923133600689000050995501809011086090271059200036009520000295147521090111582537810592000360066400002912525190901116183306)
 (.leaf 10592000360066400002893500200901116177598000006263600656000028325002007011085358770000044436009790000325645022070110873528100233444360114100001153450220701108791981038574443600024000006394502207011161726480370744436000240000166745022070110879731704097444360002400002795450220701108866050000006263600024000027504502207011083524040000062636000240000283545022070111721712500000550360002400002835450220701108380436000005503600024000035934502207011085469050000044436000260000070457517070110852749401685444360002600000515575170701117078236016854443600025000026685251907011173625080262944436000260000212857517070110863066401671444360002600001693575171001115311792))
 (.node 1 (.leaf 5308444360115900006231500201001114798525044354443601159000052145002010011145114420462044436011590000552250020100111537587205144444360108800006941550181001115956149043604443601047000060475501810011158301430451744436007900000483057517100110851420807868444360082407117250650141001116022261084574443600842000074535751710011162273560982644436008460000787155018100111667150909441444360079908878961650141001116166401103734443600719000090086001610011163973110916544436007990523904365014050111432232605913444360071431525616600160101117675373071564443600742088757676001605011171183090631144436007710000591460016050111797737710592228360077723856135600160501116145076)
 (.leaf 10592228360070413227198575170501115897008062944443600689000056725751701011165447571059222836006890523567257517010111656078906125444360080700005943550180101108406027081354443600824118977414752105011161005590784444436008240000768647521050111626264008405444360082400007795475210101113857590082134443600828000089145002005011165448470835944436008280000888545022050111681763408513444360082819887766525191401108453317080294443600828000076565251905011086677811059244436008280326762750020050110879669110592444360082800007740500200501108369817105924223600828000076575002005011084987181059242236008280116774245022050110835628210592422360087900007845475210501108828697)))
 (.node 2 (.node 1 (.leaf 10592422360082800007520475210501109023101105924223600828088773764752105011089029831059238436008282157760147521050111639433010592384360082803267523450220501108831711105923843600828157976855002014011085898971059238436008280887888250020140111758199810592384360082808878943500201401116192850105923843600828000088815251905011163191071059216136008280000876345022050111787644910592161360082800008834475210501116503117105921613600828000089376251505011161968691059216136008280711895065014050110843219910592161360082800008865575170501117452230105921613600828281476014752105011081981521059216136008280711699745022140111601118910592161360082507117166525191201117066765)
 (.leaf 10592161360082500007323575171401115975399105921613600825032672925251914011160163510681544436008250523730755018140111597890106815444360082803267307550180501115776238068154443600828071174046001605011158903270681544436008280711717445022050110800224705125444360082823106997450221401117530545051254443600828169569974502205011083523720512544436008283630705745022050110861600505125444360079000007057450220501108613273051254443600828000070574502205011183836280512544436007790887688445022050111653077805125444360002010435251450220501109154507105924083600006373853384502205011179551561059244436000003919601045022050110842914210592444360080300008683410240501116302892))
 (.node 1 (.leaf 10592000360089800008885450220501117925685105920003600832000089164502205011169434440329044436008450000889945022050110835717904236444360097900008885450220501117436300042364443601028000088994502205011085712850423644436010650000888545022050111778614104236444360090100008944450220501108233506014044443601016071188854502205011172449820140444436010250000883645022050110833877204994444360102400008801450220501108822508048914443600839000088534502205011078161820491644436008030000891645022050111581115704916444360078200008916450220501117174742049164443600782000088014502205011159645190491644436007900000880145022050111711831610592444360035700007174450220501108245605)
 (.leaf 444360080700007022450220501108042398049244443600807000069944502205011171541690355444436008070000673145022050110816784103554444360080700005129450220501108407041051254443600807000071744502205011080757550512544436003220000638245022050111739226405125444360002700006382450220501117028986000004783600011000067934502205011165300490681444436000000000649545022050110826539501404444360000000006382450220501107772725052404443600000000065984502205011077002000140444436000240000613945022050110836823000000444360000000004479450220501108524815000004443600002000025634502205011174474460000044436000000000094545022070111593814300000545360000500000157450220701115906562)))))
 (.node 8 (.node 4 (.node 2 (.node 1 (.leaf 545360000900000140450220701108259604000004443600015000004124502207011080079400000044436000220000029645022070111601019800000444360000800000367450220701117338867000004443600000000003574502207011163021320355344436000000000292045022070111690754803553444360000000002369450220701116050227000004443600002000017284502203011081887540355344436000030000231445022070110826315803553444360000000002473450220701115750762035544443600007032613914502207011083373240355444436000070000062545022070110813785503554444360001800000267450220701117088660000004443600015000001814502207011170558730000044436000050000014045022070110780364100000444360000800000367450220301107970219)
 (.leaf 4646444360000500000432450220301107918607046464443600007000005734502203011157135350464644436000000000058945022030111711538304646444360000000000558450220301115844993046464443600000000012874502207011080213870275744436000000000202745022070111695140804807444360000000002522450220701115749105046924443600000000024534502210011154931710521044436009430000570750020070111622190006623444360096800008265525190701115995448061564443600960000055015251907011081416360611944436000030000393045022070110831427405654444360002100001048450220701108342898074474443600849000074964502207011159079310845644436000000000749645022070111590649406839444360098200005864450221001113325568))
 (.node 1 (.leaf 9366444360080700008801450221001116091043080094443600885000088844752110011150354220727544436006340000881550020100111652147707275444360019800008082525191001117828928059184443600026000062845501810011160283090782144436000260000747855018100111699342505553444360098200004984450221001115700895043624443600982000041094502210011160428270514544436006980000273750020100111572152805140444360084600002945500201001115333348034504443600982000058654502205011147983580613644436009820000773145022100111629772405185444360066400006535475210101115596111057334443600032032342815501801011161766330522344436002070000369452519010111671894404516444360068900003139450220101116205835)
 (.leaf 5052444360068900004662450220101115769247027344443600026000008785501815011083819550000062636000260000190755018150110837845100000626360002600002697550181001115976543000006263600192000047985501810011084167800000056536000690000532755018100111681714600000565360029300006605550181001117071775000006263600136000057165501807011158198610000056536001920000600557517100111623564400000626360003200005886525190701108389457000005363600026000032835002010011170581310000053636000550000293157517100110800091700762444360002600003720575170101108318955007614443600634000072974502201011081094960076144436008900000880445022010111598340600761444360102900008711410240101117489271)))
 (.node 2 (.node 1 (.leaf 5126444360077100008317450220501117384666051264443600634000084384502201011084619640512644436008970000847735027050111610728305126444360063400008488450220101108557796031934443600698000086654502201011091350230319344436006340000850645022010111768975301404444360086500008586450220101117781448014044443601001000086594502201011087121610140444436011430000880562515010110894169401404444360105700008838675130101108845654045594443600689000086386251501011088344830455944436006890000663662515090110829481804766444360068900006727625150901108605936105923343600689000065886251509011087006731059244436006890000503160016080110880677810592444360068900006619600160901108576467)
 (.leaf 10592000360068900006684600160901108462643105920003600689000066666001609011163945231059200036006890000663760016070110855180500233444360063400003594450220701109030331000004443601141000017174502207011089490640000044436011410000117145022090111572490601072444360114100001171450220701116932061046474443600024000028204502207011092188970000062636000240000280945022070110899074300000626360002400003023450220701108342105000005503600024000036054502207011084618650594444436000250000483950020070111725785505944444360002500004874500200701115816846066544443600026000065415751707011159085770042044436000260000494857517070111590720000420444360002600004830575170701108388329))
 (.node 1 (.leaf 6013444360002600005073575170701117272619000004443600026000006665751707011084442450301444436000260000132757517070110869415705175444360002600003926575171001115684430057264443601159000063275002010011150186240427144436011590000521450020100111509363803391444360115900005029500201001115142008036964443601114011548815251910011160791920451744436011160000415252519100110814484407262444360079914425320625151001117138995059074443600766000052296251505011171454030666044436008250000658060016050110892086509555444360085800007740500201001116354211098824443600799000089996501410011163770221009744436006860000899360016120111533727910220444360068231609002575171201115703908)
 (.leaf 9939444360065603238940575171201116327291105924443600627102590165501810011156729370975944436008240000900645022050111387849506759444360082400006010450220501117843253063114443600689000061356001601011161443180631144436006981178613560016010111693579106313444360071903235893575170101115984175078534443600832000064835002001011159847350896444436008240000791047521010111453667308418444360082400007795475210501116154825081414443600824000077414752105011157138340774444436008280000896362515050111606883907699444360082800007836625150501117144335074014443600828102576845251905011164546990769644436008280000901170012050111697869108029444360082800007596525191401109198735))))
 (.node 4 (.node 2 (.node 1 (.leaf 8029444360082810257737550180501116316070080294443600828051777675002014011176336811059244436008280000776750020050110909991410592422360092300007821475210501109219773105924223600828000076304502205011176988161059242236008280000754847521050111626671706516444360082800007598500200501116624959065164443600828102575484752105011161231131059242236008280115741745022050111758103210592384360082811787310475210501108989265105923843600828131276294752105011166166911059238436008280000757445022140110868551710592161360082800008763450220501109090627105921613600828087588475501814011164649981059216136008283134883252519140111779695210592161360082829898866550181401117699526)
 (.leaf 10592161360082800008948700120501108058934105921613600828000089897001205011085773431059216136008281025757050020140110798198210592161360082810257438475211401115965217105921613600825144274615002012011172322661059216136008190000735845022120111595493410592161360082803237297450221201108400989105921613600824032373705501805011082133431059216136008280323726867513050111714152905125444360082807037172625150501115856309051254443600828265370665501805011159938100512544436008280703688445022050110843298705125444360076620656884450220501108780506051254443600016156153384502205011087114601059244436000323033593045022050110844126709914444360080729597523450220501117564657))
 (.node 1 (.leaf 10592444360083216828378330280501108460398099144443600837102580902903014011172580730991444436008422758807329030140111707963810592444360083608758282330280501108735454105920003600837000089164502205011174487711059200036008370000889945022050110920348810592626360083700008976450220501115911462105920003600807000088994502205011172643580329044436009690000893145022050110879787403290444360097600008871430230501117399411032904443600925000087093902505011177564380329044436010410000891645022050110833695804236444360105800008780410240501117318969042364443601091000087834302305011160132540423644436009890000869741024050111593567204236444360109400008993450220501117155525)
 (.leaf 1404444360099100008939430230501108582665014044443601092000089164502205011161515041059244436010510000891645022050111778692010592444360088511788853450220501116443977105924443600870032388184502205011091404100489144436009010000885345022050111642731604891444360087700008836450220501108476342049164443600793000087104502205011086200310491644436006820000861445022050111741630100000444360063400008614450220501116026989105924443600014000055644502205011086807100492444436000480000838345022050110850472704924444360070400008438450220501108704495049244443600807000068834502205011084006370355444436007770000696545022050110833917003554444360080700006298450220501117254775)))
 (.node 2 (.node 1 (.leaf 5125444360080700007045450220501108399313068144443600000000059094502205011083864010140444436000000000604645022050111578929500000444360000500000267450220701108245769000004443600014000017874502208011084002440000062636000000000019945022070110817087500000626360000600000157450220701108203400000006263600009000001244502207011080854790000062636000140000007745022070110787379600000545360002200000085450220701115971462000005453600010000003224502207011081666580000044436000160000060945022070111592403300000444360000300002412450220701115848657000004443600000000034684502203011081559490023844436000050000413645022070111724780303554444360000400003871450220701108260301)
 (.leaf 3554444360001300000157450220701108096353000004443600001000004324502207011079588410000044436000000000036745022030111562987700000444360000400000367450220301107969399000004443600001000006144502203011170369600464644436000050000055845022030110827477904646444360000000002644450220301117001503046464443600000000021294502203011080766850360544436000060000188745022070110801944403953444360000000002143450220701115710855049304443600000000031644502208011157188960649544436009760000808652519070111779548806156444360082500005079500200701117338870061564443600832000051805002007011160002580615644436007990000338850020070110843214403555444360001100002612450220701117270682))
 (.node 1 (.leaf 3555444360006400006757450220701108716443089904443600982000089674502210011156466730709344436009820000891645022100111620388806296444360025700004801525191001108997965076004443600026000073805501810011159252160812744436000260000772455018100111602872509092444360002600008443550181001115758494063224443600982000057244502210011161325550584044436009820000739245022100111508125906215444360002600004006550180101116308177052604443600026000026395501801011163907570504344436006890000586545022010111543130504013444360068900004904450220101116220168037314443600689000041094502201011161380850421244436006890000354445022010111614189100000626360018300003742550180101108400784)
 (.leaf 444360006900004337550181001117081794000004443600605000047455251910011081903550000062636000720000601955018080111710659500000626360005700003404525190801115962636000005363600186000029555002010011083709160000053636002070000349155018010111586963900000444360033400002637525190101108431651007614443600634000083174502205011083724590076144436008900000843845022050110851418405126444360065600008438450220101108449597051264443600961000087814502205011089339420319344436006980000878145022050110872641003193444360087100008853450220501117664668031934443601148000088994502201011089115780440844436006860000508260016010111744014504408444360068900004947600160101116145968)))))))
 (.node 32 (.node 16 (.node 8 (.node 4 (.node 2 (.node 1 (.leaf 4559444360068900005142600160801117077103042564443600689000050126001601011085842420425644436006890000653960016080110847227404256444360068900006589600160801117356503105924443600689000050726001601011089776611059244436006890000663760016080111621044205040444360068900005166600160801117426053050404443600689000050966001609011089349971059200036011360000443135027090111704838210592000360070400004989450220901116028355000006263600634000050144502207011085629640093744436008370000479145022090111625002700937444360096000004114450220701108910712001314443601141000011464502207011166142010000044436011410000116245022070111740413904550444360087000000847270310701117080050)
 (.leaf 5962444360002400002935450221001115429208056274443600024000028904502210011150663350572444436000120000356045022070111622849700000624360002400004935450220701108699961000005503600024000049504752107011173259460000055036000260000516657517070111617916600000550360002600005050575170701116233752000005503600025000049105251907011177067181059206036002260000496957517090110848320700420444360006900005098575170701108634532052444443600026000036735751707011171876640000044436000260000264657517070110838294804022444360002600002608575170701108891654052564443600026000039755751710011151312160535544436011590000611350020100111332556808747444360092200006327500201001114017793))
 (.node 1 (.leaf 7033444360115900006657500201001113325568041994443601159000054485002010011147934730312944436011590000494450020100111574271402424444360104000004736550181001108378396061434443600576000049386001610011082056380766244436007420862675457517100111729696707865444360081914286999550181201108879320100804443600779031989425251912011158506280921744436006860511879857517120110905033309920444360070200008940575171201116002805073754443600689101563546001601011159146090703744436006890000635657517010111590650007573444360068911636390575170101116464530076164443600742086264785751701011172113571003944436005280000771550020140111671381108313444360082400007768475210501114206022)
 (.leaf 8292444360082803197570500201401109857748085544443600828031976294752105011093517480956844436008371762771550020120110884394008029444360090105117740500201401108830121105924443600828069377155002014011176256841059244436008280000771550020050111610812410592444360082800007273500200501117776182105924443600828000072735002005011165340991059242236008280000776750020050110877968710592422360082800007656525190501116560080105924123600828051174384752105011163862631059241236008280862762750020050111605339706516444360082800007548475210501108864851105923843600828000075985002014011091382781059238436008461299897460016050110868162610592384360083712998800475210501108683190)))
 (.node 2 (.node 1 (.leaf 10592161360079000008763450221401109187347105921613600828268489597001205011088777911059216136008361163771550020050111747220410592161360084200007629475210501116257112105921613600828129977836501405011161799461059216136009390000773952519050110868837410592161360078212997516550181201108429186105921613600779031973545251912011172456921059216136007791015729252519120111573254310592161360077905117433550181201117159658105921613600709069373325002012011084906200512544436007931866707547521050111597956905125444360082801147010475211401117112639051254443600828051169394502214011082298010512544436008281015699745022050111604937805125444360077722797297450220501108808943)
 (.leaf 5697444360068900006737450220501108471152056974443600528234068844502205011162170201059244436008374098593045022050110875854309914444360082406935646350271401108713114105920003600790176282683102905011168974421059200036008241428835931029050111651517110592000360086700008283290301401116432782105920003600824069386023702614011084813531059262636010320000889945022140111650046503290444360090708628728410241401108704901032904443600923000089124302314011089258300329044436009190000876139025140110834418910592444360096400008613370260801108717398105924443601020000087963902507011081992130140444436010590000887641024070110829102404994444360110000008976450220501117414782))
 (.node 1 (.leaf 4994444360107400008885450220501117286725049944443601102069388854502205011174372100499444436009990862895745022050111755155300420444360079025788710450220501108707376048914443600698101573584502205011088832970681444436007770000883645022050110836414510592444360063400008317450220501108343146105924443600003000051734502205011085900910492444436001340000831745022050110855832504924444360082806938409410240501108215560051254443600803051186144502205011160397310512544436008070000846045022050111598405404924444360080700006883450220501116389957049244443600104000069944502205011085369040355444436000250000705745022050110842423605125444360000000006495450220501108192453)
 (.leaf 5125444360001017626382450220501108406200014044443600000000045164502205011082789370140444436000000000499545022050111610622000000626360000000001842450220701108719085000006263600001000002964502207011083883740000044436000060000040145022070111703343200000626360000000000115450220701108266095000006263600006000001054502207011167648020000062636000220000010545022070111577260400000626360000700000261450220701108152596000006263600009000012624502207011085162150000062636000100000010545022100110809867600000545360001100000105450221001108313268000005453600007000005584502207011162050980023844436000140000020745022070111626580700000444360001600000140450220701117144744))))
 (.node 4 (.node 2 (.node 1 (.leaf 444360001300000140450220701117094436000004443600002000002184502207011082249950000044436000100000040245022070111593969100000444360000400000345450220701116037252000004443600000000002184502207011169296940023844436000000000085745022070110863357703554444360001800000790450220701108498367035544443600017000001994502207011157337780000044436000000000024445022070110788129900000444360000900000244450220701108349739046464443600000000003574502203011158976960464644436000000000168545022030110845676804646444360001300001839450220701108117167046464443600004000015574502207011157326950346544436000020000161445022070110814898206156444360001500003207475210701108270602)
 (.leaf 3555444360001600001673450220701108428121035554443600954000076884502207011085850850809044436002070000739245022070111593139107636444360022100006509450220701108626889073684443600907000074964502207011144562940702144436008820000802150020100110867993506086444360083200004106500201001108476225084954443600982000088534502210011153046670934544436009100000848445022100111586597306435444360002600005658550180101116051538048084443600689000049744502201011145558560476244436006890000544045022010111535097004586444360068900005865450220101115453530047264443600689000042574502201011157450340419844436006690316314747521010111603109204739444360011600002440525190101115786589))
 (.node 1 (.leaf 4184444360002600001658550181501108527553000004443600069000035395501815011085655670000053636003570000372350020010111719368100000536360002600003222500201001108528735056974443600777000084283702605011087327680569744436006890000872943023050110867524203193444360063400008836450220501108745037031934443601159000089164502201011177738020244544436011210000883645022010111743898802445444360106300008785450220101116203569045594443601134000088284502201011089403320440844436011290000877345022010110869177504408444360089100006245575170101116057445044084443600689000050456001601011086850380425644436006890000648660016010110862583704256444360068900005166600160101108630357)
 (.leaf 4256444360068900006367600160101116535111105924443600689000049856001601011160322010425644436006890000479660016080111646728705040444360068900006400600160801108775392105920003601159000043493302801011092203800000062636011590000443333028080110884893200937444360114100003978450220701108656550009374443601141000035134502207011161982260000038836011410000293045022070111624991600037444360114100002153450220701116589412000004443601141000014924502207011089583150029044436011410000114045022070111844625305869444360002400002935450221001114449637049874443600024000028764502210011145417590577044436000240000290745022100111505539906256444360002400004975475210701108620731)))
 (.node 2 (.node 1 (.leaf 624360002500004972525190701117798287105924363600025000049715501807011159775661059243636000260000501357517070111633684000000550360002600005013575170701116201261000005503600026000050135751707011161668080000055036000260000505057517070111620888410592060360002600005013575170701108867635105920603600592000048414752109011090756610042044436011410000493545022090110858999400420444360002600004948575170701108454699000004443600026000045685751707011085135970480244436000260000327257517070110856356505305444360002600004036575171001115727435066324443600232000045703000010011159281310601244436011590000639550020100111332556805131444360115900006048500201001114580429)
 (.leaf 444360115905046483500200501108884970070194443601089068259435501810011162522650674844436009300113658060016100110907378309941444360063910058938600161201108454045088364443600585031689516251512011160774260921744436007790682856652519120111756849809421444360071929948780475211201116954926095044443600793011388795501812011157935130947244436008240316891057517120111590039008162444360077100006039575170501108750985073754443600771050462246001605011086703161059244436002730000789155018120111719026510592444360000000007912525191201115978007093684443600828000088795501814011092066370855444436008280000889847521140110895932809568444360085300007337390251201117430041))
 (.node 1 (.leaf 9568444360085800007317390251201115769112095684443600853084675754302312011087002320802944436008460000776847521050111794524708029444360085305047385410240501116757117080294443600842000077155002014011087440030802944436008280504757445022140111776848410592412360082800007550450221401116236940105924443600828000074384752105011174754861059244436008280000759652519050110900881210592422360082811517572475210501109203769105924123600828000077125501805011163173561059241236008280504743847521050110892610610592384360082801137602450221401109190026105923843600828115188945501805011160833561059244436008283380880047521050111633007810592384360082826208762525190501116214410)
 (.leaf 10592444360082836268780475210501116474098105924443600828313587634502205011164981671059216136008193039883645022050111623732410592161360079916508665450220501117254122105921613600719153086144502214011088112561059216136006981749725247521120111720924410592161360068915307297450221201108229927105921613600793100571805501805011084931851059216136007092397702850020120111581575205125444360068200007116450221201108608888051254443600686272169974502212011161674050512544436007090316711645022120110826701705125444360077123977116450221401115789487056974443600719218572354502205011163547450569744436008420000693945022140110876118805125444360000033125564450220501116290858)))))
 (.node 8 (.node 4 (.node 2 (.node 1 (.leaf 10592444360071920345930450220501108793960105926263600923068284243102914011086055700329044436007421845828831029140110874238303290444360092003168424310291401108774278105924673600837068280522503214011085899491059244436007820000837429030140110921751308924444360094400008584350271401116127253089244443600940000086043502714011160355320892444436010030000869937026070110847232106019444360108500008896430230801108305616049944443601078000088144102405011174945390499444436010000000859137026050111728089510592444360099305048613370260501108803248105924443600592000089226501405011089689320042044436007142563717445022050110888163804891444360080323977358450220501117637488)
 (.leaf 4891444360079905048488450221401108808478068144443600664000086144502214011162054520681444436006861287866545022050110869057106814444360068610058710450221401116132486061904443600669194185284502205011088169820619044436005580000852845022050111593380906190444360060100005408450220501115977373105924443600643321982414502205011172296230512544436008031005838345022050111718233904924444360080700006737450220501109063875049244443600007000066444502205011084171140512544436000000000664145022050110848923700000444360062100006598450220501108123277068144443600000000059454502205011157085960140444436000000000554245022050110831084601404444360000000003656450220501115775965))
 (.node 1 (.leaf 626360000000004370450220501108732384000006263600000000046264502205011092222700000062636000040000019945022070110831967400000444360000000000572450220701115774113000004443600016000016144502207011160508560000062636000280000181745022070111700868400000626360002100000518450220701108503610000005693600024000013344502210011083274120000062636000100000014045022070110848491800238444360001400000140450220701115968749002384443600003000002964502207011088456270048844436000090000019945022070111577167300000444360000900000157450220701108194591000004443600007000002964502207011081907000000044436000070000026745022070111692265000238444360000400000296450220701117282236)
 (.leaf 238444360000200001010450220701108734207002384443600000000003574502207011084380650000044436000090000012445022070110835468400000444360001400001010450220701108410242000004443600020000002184502207011082365180000044436000050000032245022070110832034900000444360000300000244450220701117086511046464443600000000018974502207011084425530464644436000000000178245022070111686271703235444360000000001860450220701115556621044554443600000000025624502208011153198990501144436000000000328745022080111444612907449444360089000006399450220701115823318053834443600957000086095002007011085214020613044436008880000552250020070111735279206130444360001400003166450220701115906694)))
 (.node 2 (.node 1 (.leaf 7800444360087900008665450220701115184688079094443600766000077314502207011161647470665244436009820000843845022100111598445206298444360098200008710450221001116297748057284443600982000085284502210011156959960565944436009230000715247521100111571955505973444360006400003441550181001115373409066064443600026000063435501810011147782020731444436000260000685655018100111575270806638444360002600006613550180501115414724052384443600689000049744502201011141180730522744436006890000586545022010111458331004632444360063400004847475210101115153079041134443600656000036704752101011160265330495444436006890000440845022010111579184604421444360068900003304450220101116194420)
 (.leaf 4427444360063400002628475210101116404717047814443600032000023035501801011160470120409144436001980000196055018150111547588103292444360052800001736550181501115962231000004443600226000050925501801011090921920000044436007040000474552519010111730556601220444360034900004608500200101108876387000005363600634000058194752101011088845800000053636002320000445857517010110868521500000536360002600006378575170101115693099000004443600366000068435002001011085863810569744436006861397815243023140110900290605697444360071900008408390250501108824527046264443600742000085673902505011087396040319344436006340000871045022050110853507903193444360106300008872450220501116487459))
 (.node 1 (.leaf 3193444360101400008781450220501108822203024454443601130000088364502205011089959910244544436011590000852845022010111757027704559444360115900008710450220101109325200045594443601063000088014502201011179676650440844436009820000885345022010110925290105040444360115900005671330280901109775973051264443600845000050494502209011087724620000051436006340000504945022090110880045400000514360104500003231450220701115997120000004723601141000036164502207011089171740413844436011410000358045022070111731440500000444360114100003095450220701116306475000004443601141000024374502207011178929140072344436010370000173741024070110890986003340444360087000000842270310701116941701)
 (.leaf 4452444360087000000847270310701115267530058114443600024000029244502210011147629190555944436000240000289845022100111413056907405444360000000005047700120701116138285105924363600283000050505751707011092306150000055036000480000496957517070110867308210592060360002600005013575170701108598162004204443601048000048774502209011087231530042044436011410000615545022090110864520300000444360002600004775575170701108597170048024443600026000047755751707011173377100576044436000260000477557517070110895011107818444360002600004969575170701116093350049064443601159000070285002010011162630690040744436011590000697250020050111544533500062444360115901126592500200501115592312))))
 (.node 4 (.node 2 (.node 1 (.leaf 7019444360086236767171410241001108852963079204443600853394069725002010011088893420931544436008450000757445022100111647557910143444360066404968909600161201108684634091864443600709244086945002012011159808281047344436007660313894447521120111572819010281444360082400008930475211201114410036100084443600782139788844752112011156265380975444436008242906886950020120111588304809673444360079940918927550181201116462300089814443600824238175475002005011092369050947944436008280839883350020140110963423509719444360082800008815500201401116483461105922923600828083987264752114011091115490956844436008530313744341024120111760271310592292360085620147413390251201117713637)
 (.leaf 9568444360084400007659430231401117578186105922923600832011275475002014011092591100802944436008320112770960016140111591637010592412360082800007657500200501109039170105924223600828000075504502205011164928431059242236008280000771845022050111624326610592412360082800007438475210501108955785096044443600828000074954502205011163679230651644436008281633752345022140111821672206516444360082804967574450220501108918382105924443600828182975504502214011090782471059244436009192096895555018050111608289010592161360082824947866625150501116159004105921613600828151778067001205011094015091059216136007793062732357517050111612251610592161360081921667298625150501117123834))
 (.node 1 (.leaf 10592161360071406677010475211201115952120105921613600689163370574502212011173640801059216136007091829705745022120110860439310592161360076609948513500201201108676829105921613600766209669974502212011087279151059216136006890313705745022120110849649210592161360078203137057450221201115806522051254443600742000069974502214011082092530569744436006390496681345022050110889814805697444360002401125408450220501108993564105924443600634323362074502205011090057991059244436008371274820429030140110888946710592000360082815178498370261401108978058105926263600828000082042903014011090773820329044436007990000818829030140110925273003290444360084500008188290301401109322317)
 (.leaf 3290444360094803138539350271401116185067032904443600963000086403702614011159652471033344436008961517849433028140110882009506019444360103400008625370260801108864745091374443600993011285663502708011087952021059244436009710667849135027080110897580210592444360071415178665450221401108799793048914443600790209668844502205011162632150489144436006640313688445022050111775805906814444360063404965477450220501117456922068144443600682182953263902514011174132041059244436001830000471741024050110867321810592444360017003135725410240501116393459105924443600400000052544502205011173257420000044436008071137825237026120110889682600000444360082804967935350271401116200736)))
 (.node 2 (.node 1 (.leaf 5125444360066400008241450220501108694409002384443600719083967374502205011089719400492444436008030000669345022050110871587304924444360005500006737450220501108820358000004443600014000066444502205011173190820000044436000250112676745022050111591548000000444360019200006598450220501108505218004204443600000000060414502205011085719010042044436000000000566145022050110844008501404444360000000005268450220501108296705002384443600000000047054502205011158807030000062636000000000361445022050110897236100000626360000600001356450221001108994247000004443600008000026804502205011156817810000062636000210000174245022070110885863700000569360001400000140450221001108424009)
 (.leaf 238444360001800000140450221001108814376002384443600000000002674502207011087158280023844436000080000024445022070110832096100238444360000500000322450220701116187365004884443600000000003224502203011084350830000044436000000000032245022030110824917400000444360000000000322450220301117020319051254443600000000003454502207011082366870000044436000000000081145022070111675771200000444360001100000367450220701108481315051254443600007000002674502203011158741840000044436000150000032245022070111589564205125444360001000000267450220701116183084000004443600007000002184502207011172019610000044436000110000014045022070111575904205125444360001400000124450220701116943848))
 (.node 1 (.leaf 444360001800000140450220701117381695000004443600009000001814502207011160660070000044436000000000019945022070111575860600702444360000200000181450220701116983550000004443600002000001404502207011157698210000044436000000000014045022070111692198800000444360000500000181450220701115558642046464443600009000004844502207011082905190289344436000030000172945022070110838952404162444360000000002331450221001115565701046734443600000000025964502208011149269670541344436003340000476447521070110860537306130444360001400002663450220701115972838061304443600016000018064502207011171828740355544436000090000222545022070111602889103555444360062300003421450220801109035786)
 (.leaf 3555444360002400002195450220701108793402073884443600825000073334502207011158367110750744436009820000871045022100111446394306639444360098200008614450221001116014912050834443600982000041094502210011160767280542144436009820000466245022100111572982205777444360098200007303450221001114655724060514443600982000076134502210011161540440407144436009820000730345022050111637089505720444360019800003694525190101115343159059594443600026000035405501801011158142190533644436001440000385252519010111598036904709444360020700003694525190101115715664048794443600689065246624502201011160348870445144436006890000440845022010111586472304285444360062100002821475210101116047813))))))
 (.node 16 (.node 8 (.node 4 (.node 2 (.node 1 (.leaf 4635444360022600002349525190101116361303000004443600558000040025002001011088107470122044436005670000525050020010110904227900000536360062100005061475210101109112570000004443600100000063785751701011085777260000044436004670000574250020010111659463500761444360063400008383450220501117503221037264443600704000085533902505011092115480396944436007770000837737026050110941427905891444360070400008458390251401109030197024454443600835000088364502205011087722310244544436010530000852845022050110893518902445444360101900008488450220101116596356052004443601114000088534502201011091403890440844436008240000887245022010111600546004408444360063400008836450220101109399025)
 (.leaf 4408444360107700009029675130101109245240044084443600839000078766001601011091421090293244436006890000597760016010110882098105040444360082400006589600160801116211606050404443600967000065715002001011164766990504044436009870000516350020010111767313300000626360091700005190550180101109124237000006263601057000062774302301011163037320360744436011590000562731029010110888755800000514360063400005049450220801108967255000005143600634000050934502209011091289090000047236011410000362645022070110877193104138444360114100003644450220701109000682041384443600845000026113302807011087077190040244436008450000220533028070111638966500436444360095400001774370260701116662456))
 (.node 1 (.leaf 744444360102700001216370260701109791749020404443600971000009323302807011155309680285744436009070000086029030070111565678604130444360087000000847270311001114693507056424443600689000046315751707011165415671059206036008750000560155018090110877180410592060360002500004523550180701117431764105920603600025000061525002009011179538090023844436000250000539852519090111720525700000444360057600004867475210701108971732000004443600148000047145751707011091221830577544436000260000465857517070110907486306686444360048100004848575170701116299285080384443600790000058935751710011156401850706244436007990000543257517100111550464007226444360087000004850390251001115990622)
 (.leaf 4546444360115901116483500201001115689094013074443601108000051275002005011158024680666644436009912229686243023100111628410805571444360112100006954475211001116213290071544443600890138369995501810011161351630760744436008280000712155018100111605230707607444360083504887066550181001117521529091144443600858000070475251910011093781071059244436006892080902257517100111454545410209444360068222298925575171201108709669098644443600714065288344752112011165962390970444436008192972883447521120111664473510091444360077912608884475211201116138650105204443600689171889164502212011160907071004844436007772479888447521120111620629710435444360068915028899450221201116403385)))
 (.node 2 (.node 1 (.leaf 10513444360082412608944450221201115552930099634443600824126088534502212011167749570963644436008240488880145022120111616154710334444360082400008916450221201115297734086964443600824065257234102412011160143400857844436008240000565341024120111547624210592292360082800007598500201401109030244105922923600828048876235501814011097713501059241236008280111776555018140110915255110592412360082400007657500201401116284309105924123600828048874335501805011092885210960444436008031260741745022050111614756609604444360082411257417450220501116282285096044443600828236072354502214011092448601059236236008280111757445022140111651282210592444360082804887523450220501109467461)
 (.leaf 10592444360082422997358450220501109013051105924443600793229988495251905011161702591059244436008480488896165014050110902390910592444360082820809004700120501117464233105924443600828161578317001205011161179721059216136008072736896067513050111629988610592161360070434238743500201201108702170105921613600704268585555002012011087891691059220636007661718870060016050110879676210592161360077727368543575171201108508576105921613600824083070574502212011088342850512544436008280984705745022120111714360905125444360076606527057450221201117438290051254443600799065270574502212011173290281059244436007821912711645022120110900792805697444360020703096426450220501109360522))
 (.node 1 (.leaf 10592045360024718165564450220501108914386105920003600836126082683102914011091253201059200036008320984824631029140110964343310592000360083518168151290301401109377932032904443600793000082042903014011091282401055744436008370000830229030140110876093410483444360083500008406310291401109012520105674443600782030979672503214011161903601056744436007711718814327031140111608626110567444360083206528479330281401117402426091374443600835048884243102914011161796320913744436008320000847933028140111610762809137444360082831408555350271401109126798091374443600835065283593102914011094463111034744436008421125801025032140110876915010592127360000603096641450220501109110724)
 (.leaf 10592417360000406524287450220501116091554105924173600349000045434102408011159560161059244436000000000425745022050110874084700000444360052809844309370261401109565746000004443600477000051294502205011160344390000044436001920000461445022050110947269900238444360021500005734450220501109436872002384443600807048864934502205011160648030166744436006130000669145022050110896611200000444360003200006258450220501109000371004204443600000000058544502205011085436540023844436000000000562045022050111570244201404444360000000004207450220501115767411014044443600000000030724502205011157192140000062636000050000135645022100110900980900000444360002000002234450221001108594596))))
 (.node 4 (.node 2 (.node 1 (.leaf 626360001100000155450221001115960308000004623600007000001154502207011086005840000062636000600000014045022100111573610500238444360024700000181450221001115818080002384443600006000003454502203011086480080000044436000060000036745022030111568860600000444360000000000395450220301116875532000004443600032000003954502203011084025950512544436000000000036745022030110852721205125444360014800001460450220301108648977051254443600048000004264502203011160932140512544436001830000039545022030110893862805125444360006400000383450220301115291189051254443600000000002964502203011158690020512544436000000000019945022030111597747405125444360000000000157450220301115721410)
 (.leaf 702444360001300000140450220301108651307007024443600170000002074502203011088467010070244436000000000104845022030110841779102515444360010400002063450220301115421212043504443600000000026594502203011152216240471044436000000000273945022080111498873005163444360080700005449450220801116814657059154443600517000058544502208011153790630568844436000090000240445022070110847131903555444360001100001897450220701108822136035554443600019000041834502207011087962190592144436000110000267745022070110875348110539444360000000008781450221001116094071091114443600000000081744502210011159112150577844436009820000498445022100111574043105585444360098200004949450221001115230087))
 (.node 1 (.leaf 4651444360098200004112450221001114965799050344443600982000042574502210011148356580582544436009820000730345022100111494646305587444360023500003706550180101115765848057374443600026000028765501801011148387280603044436000260000430555018010111622781305875444360002600004646550180101115883946068924443600683000062934502201011159434160642644436006890000572445022010111447381204971444360068900004376450220101115163206040494443600689000028924752101011157197050427844436000280000177262515100110916243704278444360014800003174600160101117201268000004443600605000045514752101011091660370122044436006210000553043023010111647931100000578360062100005864450220101118379231)
 (.leaf 536360066900006918600160101109570940000005363600136000042495751701011088995660000044436000690000748957517010110923270103726444360051700008024500200101109066425037264443600639000079344502205011161241960396944436008280000785339025050111788657605891444360059200008174450220501109346238046264443600592000079344502201011171549780355544436007820000831745022010111802527103555444360097700008614450220501117522317035554443600634000087634502205011088671570520044436009200000880145022050110915810304408444360079300008818450220501109227829044084443600962000090155251901011086803420425644436010240000636860016010111638892502932444360066900005817600160101109171223)))
 (.node 2 (.node 1 (.leaf 4894444360068606476637600160801116192962036074443600689000053606001601011087869170512644436011590000441131029080110972754205126444360110500004692370260801110270624046104443600634000051204502209011087018040000047236008720000504945022080111725744800000472360087200005093450220801117371179041384443601054000038404502203011171759700413844436010520000348741024070111601171500477444360114100002620450220701115894126002914443601141000021724502207011159559730039444436010280000177737026070111577339703238444360087000001671270310701117521379074594443600689000052255751710011151487940547144436006890000518357517070111638148905590444360034900006464625150701109112328)
 (.leaf 5109444360000000006484700120701109472277105924443600000000065087001209011180297101059224136006890000631357517070110905755710592444360027300006248575170701109546920105924443600116000063775751707011164537131059206036010600000613750020070110956562610592060360002600005032575170701109226473105920603600026000049085751707011162715661059206036000250000497155018070110901883900238444360002500007479525190701117265863002384443600898000061045501809011091149690023844436006890000628357517090110919100300000444360058500006313575170701117782414061024443600134000060835751707011090809240647844436000570000510657517080111795898606006444360027300005152575170801118006922))
 (.node 1 (.leaf 7303444360051700005022575170701109130437065744443600273000050265751707011161406670629944436000060000477557517070111590522908623444360000000005098575170701115249760066224443600790000049145751710011160080270689544436008420000539352519100110920975508337444360086500005962430231001109237070083174443600865389782194302310011157047870825244436008580110720750020100111700416207914444360094000007332500201001116559237076074443600882234271344752110011092404050825444436009230647683447521100110903370008537444360087000007607330281001114969692105924443600837030687994102410011135423521059244436005052672901965014120110876838809953444360068922148836450221201115836091)
 (.leaf 10150444360068900008853450221201115271987105924443600689000089314502212011150482381059244436006890481899345022120111591711510592444360068901108967450221201116037937100534443600689000088364502212011158900580843544436006890000817445022120111332556810592444360068200009006450221201114901859073234443600682000084384502205011150049670939444436004850000789745022120111612908208381444360091604818813600161401116030121087374443600567125087097001214011161584360985644436008280975883645022140111571193110592292360082400007657500201401115972606105922923600828000076014752114011176214380960444436008070000768355018140110895566810592412360080704817594550180501109479018)))))
 (.node 8 (.node 4 (.node 2 (.node 1 (.leaf 10592412360082800007523450221401118133884105924123600828213876294752114011163960001059236236008280000749545022050110938176610592362360082808227594550180501109522268105923623600828334372974502214011093070291059244436008281372723545022140110899474810592444360087118958972650140501109520902105924443600824272089606751305011161178501059220636008072342861152519050110868593910592206360083531768432525190501109006642105921613600845380384884502212011087271451059216136006982066752345022120110864304910592161360071421388665450221201115866137105921613600779252186654502212011158448311059216136007992770711645022120110889425010592161360070930686737450221401108719469)
 (.leaf 10592161360080727706939450221201117368518051254443600686064769394502212011086076971059244436007040481705745022120111745453710592444360079912507116450221201117297669056974443600027110846624502205011090476970569744436000550975394445022050110916292805697444360002700004834450220501117224836105920003600232011050294102414011162010691059200036008072138484931029140110925298310592000360084204818246310291401116269127105926153600842011082883102914111089576321059200036008240000832231029141111603714110592000360080706478169290301411109330805105920003600799097582883102914111091582201059200036008240481828329030121111621530010592000360080706478204290301211116409958))
 (.node 1 (.leaf 9997444360080311088151290301211109070620032904443600793064784613502714111161128601055744436007900000864037026121111598494310557444360077103068613370261211117341261103114443600771000086133702612111091784091059200036007791250864037026121110870123210592000360079006477923250321211109418545105674443600835000084393102914111094240011034744436007991372805225032141110902163110592444360080309757986250321401117242828105924443600656125066754102414011093893601059221736003840306679639025050111612880110592217360059220666735330281201109185255105922173600790148678093702614011087756190042044436000060000730345022050110920302510592127360000304813846450220501109217033)
 (.leaf 10592443360010406474634430230501109047884024454443600837000045103102912011090424520244544436006170000541637026050111618672702445444360002506475865450220501117666303024454443600000000042574502201011091319801059244436000070000198645022050110866923100000444360000000002783450220101109170664002384443600000000029694502205011177945600023844436000000000351045022050111649661901667444360043100005252450220501109013314016674443600782110881714502205011091174920000044436007820647823945022050111593339500000444360081900006664430230501109430742000004443600000000061384502205111087822660042044436000000000575745022051111560894600238444360000000005854450220511108579271)))
 (.node 2 (.node 1 (.leaf 238444360000000003427450220501108684303002384443600000000028694502205011161265340023844436000000000411845022051110911277300000444360000000002585450220801108192896000004443600021000016524502210011091804300055444436000240000018145022100110864988403374444360005700000395450221001117111916005544443600000000003454502210011085772030023844436000000000032245022100110856160600238444360000000001234450220301108556910035544443600000000003574502203011089215180023844436000160000034545022030111729957100488444360000700000345450220301116973689004884443600032000003574502203011090598250000044436000020000165645022030110868106605125444360000000001047450220301115783809)
 (.leaf 5125444360000000001356450220301115521717051254443600000000016254502203011170531850512544436000000000152445022030110890609700702444360001000000181450220301115792037007024443600005000001404502203011170969700070244436000040000012445022030111588873805303444360080700007158450220801114690352047514443600958000072974502208011158745580642344436000180000500645022080111564877506374444360013400005661450220801115106447063984443600000000043444502208011137802130560244436000330000241847521070110900575503555444360001900001342450220701108860474035554443600549000042374502207011162536000778744436000050000391145022070110878866906150444360083600004355450220701115289209))
 (.node 1 (.leaf 6176444360042300006124450220701115302986055154443600113000045834502207011155594550765144436000000000664845022100111572322108586444360000000007731450221001115274216075874443600000000058654502210011143753380689044436002650000586545022100111437533806888444360026500005865450221001114375338061534443600322000036945251910011138935620546244436009820000466245022100111476817205418444360098200004662450221001115002784059394443600689000053405501801011164733650590944436006890000510247521010111588212706771444360068900005724450220101117128268082264443600689000087814502205011158970860634244436006890000547745022010111554558104389444360068901093952450220101116259837)
 (.leaf 4278444360002600003500625150101109037170105924153600689000048244752101011093340040000044436006340000517345022010110931884200000578360011300003564575170101109072793037264443600026000057645751701011175653170372644436001570000602155018010111614170703969444360057600006899475210101108947805039694443600623000079344502201011175246440589144436006130000824145022010110938555704003444360077100008697410241201109293851051254443600719000086193902514011094707120520044436006270000876345022140110948534304256444360063400008957450220101116069925042564443600634000088994502201011089696730425644436006340000886557517010111599491302932444360063900008658575170101109520540))))
 (.node 4 (.node 2 (.node 1 (.leaf 4894444360089000007642450220101109367310048944443600951000062194502201011164710110489444436008490000751145022010111593644204894444360063400007272390250101108733476048944443600975000072043702601011173128900512644436011380000702733028010110945660305126444360115900005537330280801116821418000005143601159000054303302801011095026810461044436006340000561045022090110942403204610444360069800005032450220801109112057000004723600939000049684302308011172630890000047236007790000504945022080111589831402445444360099300004363450220701117220680024454443601031000036454102407011091436360244544436010510000352541024070110918364800744444360114100003605450220701115914174)
 (.leaf 10592444360114100003594450220701117381748002914443601141000035314502207011174143420029144436011410000359445022070111611827500394444360114100003605450220701117302966022764443601141000035944502207011092169400682844436006890000637757517070110887356700000444360029300006307650140701109626817105922413600528000064056251507011092051250000044436000260000621557517070110953222400000444360013400006341575170901117716585105920603600273000062485751707011089982241059206036000240000507247521090110908536400238444360002400005121475210701109072615002384443600549000063415751707011089421870698544436004420000602360016070110913384406985444360029300006081600160801116120877))
 (.node 1 (.leaf 6835444360068900006488575170901117709505067054443600689000061565751707011094364500753744436000320000579562515080111580172807142444360000000005520650140701116157213077884443600000000051187001210011160898030829444436009340000617147521100111338192907559444360093400005811475211001115748179087864443600901000073854302310011157049310750544436008980302683541024100111601168807878444360089800007116410241001109662476083374443600878096374214302310011176646270833744436008752937575543023100111612443908361444360087003027174450221001116215265080114443600840000072335002010011162439250780444436008580000697250020100111573617407808444360085803026972500201001115566113)
 (.leaf 8490444360087000006010450221001115482969075534443600627158554645251910011162353420806744436008443141707547521100111573272109451444360092300006457475211001109252469094514443600877147388364502212011164012740945144436008650963876345022120111588703809005444360083618818626475211201116250675105924443600549265790076251510011097923421006444436005403242898462515140110899310609710444360068916928781450221201116264895097904443600682081387814502212011165836701054044436007660642896850020120111657254610592444360077125079014500201201116068118105924443600779096390035251912011168242231059244436006340000905167513100111439682010592444360077900009012450221401116376086)))
 (.node 2 (.node 1 (.leaf 9389444360071403028739575171401109077072084314443600623196787896501414011175004160885244436003490302886367513050111791298508500444360044200008700600161401117233207094454443600779064286204102414011095603970981944436006230813871243023140111767743109819444360062100008743500201401116346506098194443600686124087435002014011179083810971944436008320000881550020120111613537110592292360083600008866550181201117802773105922923600828000089105751714011096266161059229236008280000881452519140111692464810592292360082500008743500201401116160674105922923600819030273545251914011090740110960444436008240642765750020050110952391009604444360082810968818450221201116239764)
 (.leaf 9604444360082510967718450221201116577743096044443600828000088364502212011183711250960444436008280963755045022140111644672909604444360082809637714525191201116285372096044443600828109676575002014011177039401059219836008280109752047521140111747473110592198360082800007550450221401116120846105921983600828265775965251905011160890341059236236008281096871045022140111808785410592362360077717827417450221201115873354105920913600689169271744502214011092609601059244436008241782861445022120111660451410592444360071930868665450221201109264604105924443600779232588785751714011089517671059244436008241782879950020120110899464010592444360077919678813600161401109241150))
 (.node 1 (.leaf 10592206360070425538528450221201115388477105922063600828341783834502212011158736681059216136008451782852845022120110880725310592161360082815857116450221201117096749105921613600704081367374502212011087471480512544436007790642681345022120111715097305125444360079308136813450221201108789099051254443600742147368844502214011170286991059244436007041096705745022120110917127705697444360011300003728430230501109433505056974443600032124060414502205011174968741059216736005921782479235027140111594326310592000360077108138322310291211117703579101474443600790158582883102912111093503021031144436008070642861337026121111606046109862444360082506428625370261211116068467)
 (.leaf 10180444360082414738653370261211115864336105924443600777030286403702612111157173631056744436007901967820429030121111001925010131444360078200008378330281211109443936101314443600664178285463702612011087290641059244436006641096855937026141110900915110592444360083709637983290301401116301121105924443600842239578412703114011169508941059244436007770472835539025140111651123410592444360062304726789430231401109321361071814443600028047268134502205011162315051059221736002262833644539025050110911177500420444360084223955678270311401109096151004204443600001000047074502205011095026330000044436000020000356745022050111625521010592443360000504723698450220501108923962))))))))
 (.node 64 (.node 32 (.node 16 (.node 8 (.node 4 (.node 2 (.node 1 (.leaf 2445444360018601094737430231201117457684024454443600623000044463702614111088579200244544436008451359412931029140111744538000000522360001600001418450220501108910242000004443600010000004624502205011174377400000044436000070000041245022050111598633100238444360000100000610450220501117382636002384443600000000016734502205011161460990023844436000000000226945022050111756908500238444360000000002510450220501116333672016674443600664000034714502205011161647930000044436007770000616645022050110881613400000459360077924538309430231201108675783000004443600057030261904502205111089615600000044436000000000583845022051110890376100238444360000000005661450220511117087326)
 (.leaf 238444360003200004640450220511115797391000005683600000000040564502205111088960970023844436000000000476145022051111616713200000568360000000004809450220511117566765000004443600000000041704502208011088926550000044436000090000263645022100110853326800000462360000100000181450221001109169986033744443600000000005734502210011089167950337444436001980000035745022100110876396500238444360001900000357450220301108676506035544443600000000005734502203011159127370508744436000000000168545022030111713663100488444360000000000857450220301108739981004884443600003000002964502203011088048160048844436000030000098745022030111568574105125444360000000001848450220301108732104))
 (.node 1 (.leaf 5125444360000300002195450220301117011208051254443600000000028584502203011158805200512544436000000302345145022030111582836405125444360000009633738450220301108554344051254443600000000050184752103011088895450512544436000000000339450020030111743209005125444360000000002693500200301116078750051254443601004000028134752109011155072230512544436010530000418447521070110855246305125444360000500002538450220701108842994007024443600134000018274502203011093464810070244436000480000200645022050111583910301360444360066900001467450220801116938295013604443600923000066724502208011167738970321144436010410000500645022080111555711608346444360000000007803450220801115329811)
 (.leaf 7538444360000000007211450220801115814678063074443601141000078984502207011152064290751444436008030000758245022070111535088507232444360000000006801450220801115257981074744443600000000071354502208011155704380619744436008070000773145022080111695471706987444360054000007838450220801116230214061824443600011000026814502207011090311610355544436000200000201945022070110896969706310444360001400002825450220701109224864072934443600192000048274502207011161545660721644436008880000490445022070111581590806300444360000000006298450221401115425298062114443600026000031675501810011153909350600444436000260000287655018100111596306806809444360002600004164550181001114633033)))
 (.node 2 (.node 1 (.leaf 5580444360068900004981550180101116195192048564443600689000036805002001011160191780716444436006890000843845022010111672253207712444360068900008614450220101116805595059724443600689000052514502205011149951630479444436006890000457745022010111571622102906444360068900002503475210101115952055023164443600689000022725251901011160987570406844436006890000196355018100110898048000000444360045000003168575171001117215068105924153600207000040086001601011101116270042044436005920000552250020010110996237300000578360007200003502575170101109465417039694443600026000046595751701011089281470396944436001570000574155018010111597824403555444360046700007459500200101109419022)
 (.leaf 3555444360084600008174450220101109706876040034443600623000085484302314011093815320512544436006270000874843023140110917885805125444360068600008915475211201109580569072374443600621000087814502212011163214350440844436006270000883645022050111606039004408444360063400008818450220501116302680044084443600634000089684752105011160924450440844436006270000895847521050111719223304256444360063400008801450220501117455113072374443600634000089154752101011160840441059244436006390000895457517010110929236804894444360071900007291390250101108925359051264443600977000071403702601011090576610512644436011590000566933028080110885915205126444360115900005655330280901109391228))
 (.node 1 (.leaf 4610444360115900005609330280901109232340046104443600951000052444302308011092370560000047236009340000533043023080111612720204138444360107200004652370260801109447175024454443601141000056614502207011088223210074444436011410000562245022070111732440702455444360114100004828450220701109454681000004443600669000060835751709011093031411059244436000480000618757517090111600302110592444360002500005124525190801109355737002384443600024000050954752107011092713380023844436006890000753457517090110947048100238444360001700006234700120901109415348069854443600048000061186751307011096651720732744436000090000620770012080110991121307492444360000000005564700120801109177875)
 (.leaf 8878444360000000006234700120801115999435086494443600902000068824752110011147876000703444436009340000542947521100111392035006483444360093400006457475211001116147197091344443600846010876014752110011162294710933744436008280000771845022100111783860610592331360084400007738430231001116251070105923313600835029976604502210011097163320961044436008280108763045022100110953440208700444360091941817075475211001109590767094514443600879419169974502210011095971831059244436008423914896745022120111605083810592444360084501089017450221201115724869105924443600835095190124502214011157168021059244436008280461901847521100111530160510187444360055841068953600161201109292345))))
 (.node 4 (.node 2 (.node 1 (.leaf 10111444360061736888894550181201117926386101114443600698312488524752112011165833500994444436007990299883447521120111744940809944444360077908038834475211201115874711098274443600698063688344752112011093181751038244436007660299896460016120111642597109811444360068606368877600161401116481735098114443600689063688136001614011175501581059213336006821570888152519140111672204610592070360069800008940575171201110439579105920703600634000089986751301011165153431017244436008240000865041024120111619553910592070360076614608799500201401116338166094454443600576186488465751714011177111960981944436004861229887857517140111630304410592374360081904618879550181401109582579)
 (.leaf 10592374360066908038910575171401116303115105923743600891000089386001601011093044701059229236008280951887047521120110930597810592292360081900008849525191401109707665105922923600828134287814502212011161385990960444436008253779883447521120110959209509604444360079904618953600160501109695049096044443600828259288004752114011160209870960444436008280636881550020140111747442610592362360080712298846575170501109013911105923623600825225171164502212011089694071059209136008192992723545022120111596835510592091360084239187358450221201109021799105924443600777347472974502212011093112571059209136008363358881647521120111592111710592444360082535348869500201201117294586))
 (.node 1 (.leaf 10592444360081918648832525191201115994296105924443600842186486144502212011091566301059244436008251229848845022120110889562510592206360079313428555500201401109046518105922063600819243785205251914011159180811059216136008422490860050020120111698379410592161360084530308528450221201117160907105921613600782063668844502212011086092320512544436008421864699745022120111720123810592444360070900006997450221201117379587056974443600782335871164502212011092498630569744436001130000594943023050110954699305697444360002710864744450220501117831888105921673600116046151454302314011173421141059216736006431086468625032120111578223010592000360063402994743250321201109038355)
 (.leaf 10592000360074221808379310291211109162566105920003600793194982883102912111093919821059200036007900461840733028121110940006110283444360077106368359310291211109373967105920683600777122982463102912111160556830962244436007710299710635027121111749913909622444360076606368539350271211115835004105164443600766029984663302812111161283971022344436008190000842533028121111584576310180444360083701088504350271211109106775104744443600837122985283502712111160043471059244436008370299858435027121111556823609721444360068615708437350271211109222931071814443600528046163654102405011093686290718144436000720000662143023050110970450500000444360000700003057450220501109103686)))
 (.node 2 (.node 1 (.leaf 444360000000004179450220501117275353000004513600198080345594102405111092035400000062636000220000007745022100110882124401667444360001400000635450221001108685193000004443600003000009374502205011098053760000044436006050000182645022050111744007500000459360068900004086450220501108807945000004443600742046161483902512011089612560000044436000200000599145022051110904147800238444360000000006138450220511115737452002384443600003000058714502205111157452250000044436000000000511745022081111569759300000444360000000006007450220801108519074000004623600011000010764502210011095502360337444436000010000026745022100111719353903374444360004800000436450221001109258948)
 (.leaf 238444360082500000575450220301109167989035544443600001000003574502203011088584460355444436000000000034545022031110885413705087444360000300000723450220311108815115050874443600003000003454502203111173187850334344436000000000038645022030110878191103343444360000002991681450220301108635518051254443600000218022404502203011090342010512544436000000636704545022050111581252305125444360016404617492475210501109260984051254443600134000060985002005011088134150512544436001980000579750020050111583027705125444360065600003047475210901115835783051254443600307000018724752105011172177530244544436004130000160547521050111723246102445444360002700001359450220501108785034))
 (.node 1 (.leaf 2445444360006900001742450220501116885780007024443600000000016044502205011173413600070244436000000000178345022050111587287800702444360003300002219450220501115752988007024443600015000019194502203011086842360070244436000160000057645022100111725874301360444360010400002022450220301117220340028504443600923000047884502203011090662690604744436003340000729745022010111537071200954444360109700007381450220501115423120030964443601008000073814502205011091232570425044436009580000770045022050111568678708096444360000000005300450220101115915793080434443600807167987164502208011156928580605344436000030000187445022070110948933406112444360022600003171450220701115939134)
 (.leaf 5856444360010400002538450220701115711561063104443600015000037714502207011088085440479944436009820000398345022100111542962405285444360098200004408450221001115832506056654443600982000048274502210011155259030505044436009820000381145022100111565354806213444360002600003360550181001116613837047984443600689000043055501801011148400570488744436006890000368050020010111601389105681444360068900004827450220101115855985054174443600689000049844502201011162150470490344436006890000466245022010111569978604719444360068900003656450220101116333068030224443600689000023984752101011159891400427344436001980000243560016100110936851104459444360028300002756600160101115968052)))))
 (.node 8 (.node 4 (.node 2 (.node 1 (.leaf 10592415360042300004140575170101109610387105924153600621000050295002001011165035720042044436006270000492347521010111027533300000578360036600004749575170101117680435000005783600257000049396001601011174802320042044436000570000341362515010111726124103969444360010000003225575171001115875105000004763600026000030845751710011091621360355544436006170000766347521010110971797703555444360115900008573450220101116522934040034443601120000086144502205011097456410564344436006692163887245022120111647392605125444360074207938899450221201116215472051254443600803000089674502212011095054490723744436006390000885345022120111637165704408444360062100008872450221201117748928)
 (.leaf 7237444360063400008899450221401109941201048944443600779000086144502205011181884230702044436011430000898645022010110962613204894444360094100007738430230801108902687051264443601159000057733302808011096796440461044436011590000545233028080111765570402981444360112800005422350270101109702692041384443600938000059074502208011174829630413844436008700000578645022010111600676604138444360087000005549450220801116183772024454443600870000054344502208011093780310244544436008700000507145022080111626445002445444360087000005093450220801116347002024454443600870000050714502208011092593951059244436011410000512045022070110920376503995444360114100006434450220701109208464))
 (.node 1 (.leaf 6498444360114100006609450220701114992364060794443601141000065844502207011147285920695144436009650000662850020080111610368705781444360097300007505550180701109550252000004443600009000077697001207011093535290076144436006890000750357517070110970199000000444360068900007477575170901116445707000004443600689000062835751707011162672040000044436006890000621557517070110941235710592060360068900006187575170701117720040105924443600592000062835751707011177107481059244436004130000531552519090110956804300238444360068200005740575170701109412356002384443600771000075345751709011101923291059244436006890000608357517090110951071807017444360000000006207700120701116594076)
 (.leaf 10592266360000000006071700120801109705188074924443600000000057247001201011161672530943244436000000000723570012010111717028009326444360000000006143700120101109742216102964443600669000065865251910011153086500900044436004310000608655018100111587013609134444360077900007717475211001109731847093524443600955010777954752110011162408570920744436008250000774147521100110963570109391444360084504486304450221001115306410082534443600844132959005002010011158886160726444436008461758671252519100111575888210345444360081941938869500201001109639346094514443600878339570104752110011178366070945144436007664147768745022120110969587310592444360084209368709390251201117271036)))
 (.node 2 (.node 1 (.leaf 10592444360077907938896430231201115848361105924443600832000090134752112011172064851059244436008240107904260016100111421652010592444360089724259023475211001115960896105924443600689079390415751710011158623021059244436008973143902450020140111582857510310444360095302959020525191401109262532103904443600871155589945751714011093805261018744436006013278896362515140111611552210592280360083600008915475210501109438071105922803600832079388524752105011162990560982744436007420936883447521120111751306409648444360070413298870475211201109918817105920703600714321788975002012011097136541059207036006051758886655018120111610160510592070360076609368951625151201109589046)
 (.leaf 10592374360065623018891625151201109793205105922923600634000088136001612011163336811059229236008240793879950020120111763527210592292360082821638818450221201117986066105923473600793155589746001612011097185470960444436008280295880145022140110948538009604444360079904488872450220501109091427105921983600782000088695002012011173384761059219836007902364893665014050110917634310592362360077117588847550180501115811056105923623600698121786654502212011175780491059236236008440793852845022120110953634610592091360084500008528450221201109404181105920913600844361275504502212011163220521059209136008323461885247521120111599792910592444360080337008781450221201109199937))
 (.node 1 (.leaf 10592444360084522388763450221201117917159105920003600793107684884502212011176798021059244436008452476857345022120110936140210592206360084434148488450221201109053480105922063600803236486565251914011090019081059216136007900000833447521120110891202510592161360070400006997450221201109045377105921613600704000069974502212011172571551059216136007040000693945022120110875633810592444360078200006813450221201108899804056974443600825000068844502212011091857310569744436000280000605845022050110986586410592167360003300004984450221401117706097105921673600183284254214102412111160473031059200036006690295713739025120110930099910592000360068906318002270311011109528692)
 (.leaf 10592000360083712178479330281011109483805105144443600742093682412903012111159507121028344436007710000832231029121111726793310592068360064316625573350271201109589494096224443600709010753833302812111159996510962244436007090000522429030121111606074409763444360044200005554370261011117523135097634443600803000055583302810111161143180986244436008360295538831029101111728598609862444360083500005558330281011116023152099434443600837063185393502710111089979101053044436008320631856635027101111564973709717444360083613298944450221211117466989105924443600664166284373502712011095393131059244436006562095832133028120110906079505696444360066423018490550181401109497261))))
 (.node 4 (.node 2 (.node 1 (.leaf 7181444360084510767352250321201109536346000004443600006079359584502205011103421540000044436000000000486345022050110962861500000451360001806313859450220501109162366000005223600000000025624502201011093140080000052536000000000203645022010110927533400000525360000500001952450220501115936299000005253600003000021514502205011173415940000052536000090000214345022100111752017200000525360000300002087450221001117432093000005253600009000020454502210011172687430166744436000070000211245022100111589922501667444360001100002045450221001116165067000004443600016000003454502210011089959000023844436007931076776145022050110918112700000444360070402957989430231201109158575)
 (.leaf 444360062110766070450220511108624887000004443600024000061384502205111157307620000044436002260107608541024051111722095900000568360021502956085410240511109304972000004443600004000042024502205111157335860000044436002210000543745022051111535295100000444360000000001952450221001108967775033744443600000000003834502210011090514220355444436000140000304545022030111569340303554444360000000000383450220301109109898033434443600000063115784502203111088693420512544436008451217751745022140110897459502445444360106900002452475210301116070167024454443601149000025014502209011091687380244544436000250000259745022030110881060002445444360000000001991450220501115826542))
 (.node 1 (.leaf 702444360000000001699450220501117125353007024443600000063113924502205011157801650244544436000200000090145022080110889078002850444360000400001768450220801109271338049444443600929000073384502205011156869490503744436005760000758245022050110908311803096444360090400007381450220501109075222083634443600000000055495002001011157910240928844436008070000872345022100111556747507685444360080700008624450220801115555258067374443600807000086064502203011157932570886944436008070000888545022100111608636905786444360085300005305500200701109456579060754443600664223843084502207011158384530725344436009470000517345022070111590560506016444360098400004207450220701115227069)
 (.leaf 4684444360098200002835450221001113325568044264443600689000026585501801011157837250462144436006890000298352519010111578052204947444360068900003864550180101114809172062414443600689000055644502201011158612420437044436006890000381145022010111580447703579444360068900002628475210101115232057030394443600623000020715501801011156032570445944436006340000527647521010110994432306072444360059200005377500200101117744784060724443600549000055465251901011095697610042044436005920000552250020010110981439400420444360046700003815575170101109585702000005173600055000029646251510011160079410000057836000320000281562515100111575377800000578360015700003877600160101117490013)))
 (.node 2 (.node 1 (.leaf 586360018300003436575171001117057192000004763600026000038125751701011090731220140444436000280000315357517100110940268001404444360059200008528450221401116125836052314443600605000086144502214011174671710564344436006820000878145022120110964134305643444360083700008884475211201109829317072374443600771000087634502212011164161730723744436007420000880145022120111637025107020444360063400007456390250101108987620051264443600634000060743702608011086968430298144436009960000665447521010111660053602981444360110500006018370260101116115380029814443600828000067065501808011091353420244544436009710000566045022080111581969010592444360114100005483450220801117364571)
 (.leaf 1404444360114100005298450220701109141861041514443601141000064874502207011093305570619844436011410000660945022070111512375705772444360114100006537450220701115298024060964443601141000066094502207011165132960496244436011370000758552519070110976127600000444360105100007641550180701116228489000004733600025000075766751307011101264410076144436006890000761257517090110949411100000444360069800007556575170701116374239000004443600793000061885501809011096556540000044436007140000621557517070110941070410592327360068900006436575170901109637717105923273600558000061885501807011159181621059244436003340000618952519090110964365901403444360068900007449575170801117635113))
 (.node 1 (.leaf 1403444360068901067534575170901115790864002384443601004000075375251909011090555750023844436010000000628652519090110933988210592444360001500006630700120801116553248105924443600226000075786501409011160673231059237536006270000599460016090110978515710592444360029300006096650140101117892271105924443600000000066787001201011097502110683544436000250000646167513010111821649110592266360045000006308625150101109490655105922663601017000061605501808011161675260868644436000250000633270012070110948927106537444360049300003896300001501113325568050974443600493000036143000015011133255680994844436008980000693031029100111518422908829444360068200007630450221001116486254)
 (.leaf 9202444360083507835883475211001117733404083754443600858000071904752110011155847600771844436008580000561250020100111578949307279444360084900005393525191001115823667076094443600842010666395501810011177026311001944436008461316698752519100110991431609451444360061341288927550181001109522795105924443600837222285773702612011097917251059244436004421926899360016120111700478310592444360058535159016575171201116119343105924443600870092990335251912011158709261059244436008562971890541024120111593470110592444360084528659039600161401109909893103104443600664092990076251514011094503671039044436009192083899652519120111609418610187444360061720838953600161201116236788))))))
 (.node 16 (.node 8 (.node 4 (.node 2 (.node 1 (.leaf 10592280360082818328915475211201116358834105922803601030120489774752112011094066491059228036008583807887047521050110976569810592086360051702918963625151201109357146105921333600793165389154752112011094998701059222036008280445891057517120110955820710592374360076602918964600161201109316221105923473600807143689275501812011175448321059234736008030783892557517120111616145410592347360087104458925575170501109451410105923473600824078389255751712011172355491059234736008190624897460016120111598945810592347360091102918954575170501109470021105921983600790078388524752112011095165711059219836007142346870852519120110924434510592362360068912048488450221201109177272)
 (.leaf 10592362360084235718438450221201115906361105923623600844174185284502212011161203901059209136008453378852845022120111738569410592091360084535158528450221201117727207105920913600803256088364502212011097551981059244436008193126893860016050111595404210592444360081914368818450221201116018062105920003600771279788184502212011097407151059200036008440783866545022120110966489310592206360084420048499475211201109033484105922063600839165384994752112011170824871059216136006981653831745022120111562015910592161360070427528383450221201117108903105921613600742303887104502212011092714611059216136007661926861445022120110907734910592161360070400006939450221201108795616))
 (.node 1 (.leaf 10592134360070404457116450221201117114674105921343600709000069394502212011155868611059213436007792222688445022120111717925410592134360002802916542450220501117846305105921343600033000067374502208011162395521059213436000481436533845022120111771391210592167360068900006521290301211109317950105920003600709000065202703112111092025141059200036007420291802527031101110932057210592000360083717418577370261011109402740105920003600719106779582703110111160444281009344436007090000802527031121110925586210592068360076614365128310291211109534534105920003600766208349783102912011159576160962244436007711541533331029121111598053110592000360077109295265310291211115982626)
 (.leaf 10592000360054025605700370261211115896127093924443600639000056233502710111097130600939244436008350000591539025101111768939309392444360083500006150430231011109855306087984443600782078388994502210111096840080998144436008030291891645022101111609891709563444360083700009018675131011116088144092224443600837062490047001210111096492220912944436008370624900470012101111602234209152444360083735549011700121211116296362097174443600836000090196501412111096190790971744436008353293891450020121110960114110592444360082427978914500201211115917150092554443600689241388364502212111175342271059244436006693126858539025120111737888805696444360059215418948700120801109726734)))
 (.node 2 (.node 1 (.leaf 5696444360062323468865575171201117653788056964443600819266081073102912011175364420000044436005051067457745022050111039103300000444360000000004967450220501109751167000004443600019143634214502205011091490900000044436000070000149145022010110928808802445444360000400000956450220101117360909000004443600003000021294502201011172775210000052536000110000224845022050110921397100000525360002200000322450221001109108962000004593600016000001054502210011094969530000044436006560783809845022050110926381500000444360083500007131350270511109245081000004443600192000058404302305111171407310000044436000000291638245022051111557505806599444360000000003033450220501109127207)
 (.leaf 6599444360000000002241450220801117105774065994443600000000015694502210011157285140355444436000220000252143023100110913027003554444360000000003439450220311109224692035544443600198000038054502203011158003280508744436000110000111945022031111718905305087444360000000000357450220311109119499050874443600000215120144502214111157994760508744436000001067215245022141111727217703343444360000000002189450221411117038081033434443600000000025614502205111153083970512544436000180000384645022050111580708805125444360005500003401450220501109286544051254443600113044520924502205011090246850512544436000140000389945022050110938259605125444360084612048492450221401109198556))
 (.node 1 (.leaf 2445444360095700002538450220501109350959024454443600998000032464502205011096761050244544436011520000497345022050110924456602445444360000400000838450220301109415409024454443600008000012344502203011169586860244544436000140000137145022030111699997303096444360001600000534450220801108971667030964443601075000071324502205011093007460588944436000690000445652519050110947092009159444360080700008403450220701109369184089874443600807000084884502207011093693620611244436000030000360645022070110974931705856444360001400003106450220701109382136062794443600026000033605501810011149209100698244436000260000430555018100111570226406413444360091400004984450221001114868285)
 (.leaf 5106444360098200003952450221001113325568057024443600837000038365002010011133255680523944436009820000425745022100111332556806269444360071800004257450221001113325568047064443600689000031675501801011158316650482144436006890000354055018010111584149006060444360010900003864550180101115403643067564443600689000057244502201011163039630555744436006890000498445022010111446786804382444360068900005546525190101109604565002384443600689000056644752101011100641020000044436006560000572445022010111020969800000444360064300005585475210101109849541004204443600643000049445002001011179125320042044436006890000386455018010111737713800000517360014400004097600160101117299370))))
 (.node 4 (.node 2 (.node 1 (.leaf 517360054900003265575170101115888708000005863600170000030546001610011092065570000047636000330000209957517100111577234100000476360002600002283575171001117126252014044443600026000031085751710011093367600523144436005920000866545022140111021689905643444360082800008853450221201110158601056434443600835000088335002010011177654220564344436008360000881360016100111644049507237444360083600008729430231201109690832072374443600835000088534502212011099870670489444436008190000887245022120111761108304894444360071401058931450221201117545697048944443600807000089764502212011160690550602344436008280000899345022120110931758807029444360062100008944450221201117830979)
 (.leaf 7029444360060100008818450220501116216090070204443600592000088184502205011099800650702044436010800000787145022050110910571505126444360065600007947450220501115227302051264443600634000079474502205011094117260512644436006860000668357517010111800986302981444360063900005914350270101116189126029814443600686000067055751701011099470620298144436006890000672362515010111622970302445444360068900006787625150101109888715024454443600689000068247001201011100343840140444436008350000656352519010111008797201404444360114100007769450220701115721632041514443601141000076034502207011173184350415144436011410000744545022070111775401000000444360082400007371525190701110012040))
 (.node 1 (.leaf 238444360082800007063525190701117867992014034443600709000074055751707011159335771059232736006890000589657517080111546888410592327360068900006083575170801117166367105923273600689000061025751708011157979280592244436006890000747757517070111604314301403444360068900007638575170901115872322002384443600871000077465751709011170481390615844436000480000640167513090111593933600238444360000600006562700120901116147050004204443600689000061856001609011099105391059237536006890000631357517010111778045107365444360068900006242625150101109474647073084443600967000062835751701011096714390720044436006050000643165014080110966915806925444360079000006317575171001116255119)
 (.leaf 8319444360087900006829370261001109472552088384443600771000074384752110011102124500961444436008170000734950020100111578836307797444360085801056972500201001115967698080604443600836044271215501810011096224520873644436008490442709150020100110991154210019444360085336228602370261201110143234105924443600839385585393502712011104914691059244436007662820899550020120111736311110592444360085830169009525191201109943626105924443600467340990356501414011100077771039044436007903258886557517120111626426810592196360066930168869500201201116038578105921963600845207088164752112011097658861059213336003840442892265014010111004130010592098360045015298990675131201117767650)))
 (.node 2 (.node 1 (.leaf 10592098360063400008993600161201117636015105920703600686130589285251912011093964951059222036006641421892460016120110969075910592220360080300008988500201201109640579096044443600790061889736251505011163519211059219836007992274889260016140111636354010592198360078229576500625151401109486061105921983600689220987104502212011095325861059219836006862209852845022120110912999310592362360077938808488450221201117271121105920913600799345786654502212011091282951059209136007993868885247521120110962299310592091360076630618781450221201117612315105920913600714213587634502212011160928701059244436007141909888545022120111595913410592444360071433458872450221201117496593)
 (.leaf 10592000360077122748665450221201109396607105920003600779152985734502212011093677061059216136008072396838345022120111759259510592161360077128538710450221201109596285105921613600779044284384502212011091097171059216136007790000843845022120110903289210592161360077900008383450221211115223113105921613600766010569974502212111090207591059213436007140000693945022120111719535710592134360077700008174450221201109449575105921343600028061868134502214011160405011059216736004310000515935027120111588093510592167360068200004926270311211115779345105920003600790092166752903012111092568860956744436007900769846135027101110953202610592000360083706188899450221011116487559))
 (.node 1 (.leaf 10592000360083623298853450221011109646267100934443600828044287834302310111171102301009344436007991421855937026121111569295810592068360070409216223250321211109196841105920003600704092163212503212111158162481059200036007140618652027031121111755980210592000360077118205296290301001117598087093924443600779044252672903010011177451471059200036007902451571035027101110947122608798444360078200006270450221011117673766087984443600799000086834102410111159753190993644436008030287866639025101110969274309735444360082400008985600161011116165900094274443600793190990287001210111097116790971744436008352070903370012121111743973909717444360083231678514370261211116078295)
 (.leaf 9255444360080727388893575171211109728942092554443600714207084213502712111096080970512544436000640287605845022050111627567605125444360000000003210450220501109780497000004513600011000022584502205011158545180000044436000080000186945022010110914008100000444360000600001994450220101115555320000005253600247142116233902505011093325840000052536000050000172945022051110942765200000525360000900001839450220511117261867000006263600018000001154502210011092159030000045936000090000015745022100111730228600238444360001100000958450221001115947555002384443600018000001374502210011162670010023844436000170000043245022100111609582600000444360000500000946450220101109665551)))))
 (.node 8 (.node 4 (.node 2 (.node 1 (.leaf 444360063400007406430230501109326425000004443600028000057574502205111154175070000044436000000000600745022051111451229610592444360005500002450450220511109271399065994443600215000010853902508111093622530439744436000030000114945022081111711008704397444360007204422444450220311117256319035544443600007314429194502214111158479800508744436000000000242245022031111716642605087444360000000001979450220511117107363050874443600000028722404502205111157029070508744436002471187254239025100110964993605125444360001800003626450220301109400734051254443600027000020204502203011171349840512544436001980000187543023050110898924405125444360085801058272450220501115845328)
 (.leaf 5125444360087000008576450220501109351682051254443600845000072564502205011158831520244544436009540000312950020050110916544901218444360006900002110525190501115940176012184443600013000007804752103011089826130309644436000190000035247521050110914360000000444360054900007381450220501117096704030964443600000000072114502205011170051260000044436000110000721145022050110919523100000444360070900004456525190501109092763055304443600617000051964752105011158211740821544436008070000840345022050110998460709071444360068600008383450221001110222438073184443600198000045914752107011094706320645844436000020000387145022070110975692805686444360061100003360550181001115169620))
 (.node 1 (.leaf 5846444360098200004984450221001114868285050354443600982000038114502210011133255680566744436009820000482745022100111332556805586444360098200004744450221001113325568054604443600982000046624502210011133255680571444436001090000316755018010111583657705900444360010600003540550180101115841490060874443600689000055644502201011154064860404044436006890000351550020010111570496703350444360068200002275550180101115702745035604443600100000016766251515011094645710413744436002070000232660016100110950803203635444360041300003135575170101115840529000004443600634000057244502201011098273200000051736006640000564845022010111001873900000586360023200003040550181001109133602)
 (.leaf 586360040000003082550181001109093085000004443600026000030495751710011172859620140444436000260000376757517100111589873805231444360005500003483575171001109625160052314443600664000087104502212011163415260523144436006820000876345022120110963049807043444360083500008781450221001115972460058724443600828000088984752110011160118070706844436008320000896850020101110999413907068444360083600008852475211001115999519072374443600835000087284102410011102847500813644436008350000893145022120111703662206037444360083700008783430231201109964962060234443600790000089864502212111098091720702944436007990000893145022120111834421907020444360066400008597390250501116523765)))
 (.node 2 (.node 1 (.leaf 7020444360068900008568410240501110336748051264443600799000079694502205011158060060512644436006340000788945022050111547455210592444360085600005873370260101116481659105924443600198000064244752108011179918901059244436006890000676462515010110967992710592000360068900006680625150101109725807014044443600689000067236251501011094164200140444436006890000665462515010111765415205125444360068900006804625150801110007296051254443601110000078924502207011160136590415144436011410000784745022070111027661805069444360113200007720450220701116939205050694443601138000077204502207011154708280839744436009150000706233028070111596227105024444360114100007820500200901115779881)
 (.leaf 4416444360115400007744500200901114531541048514443600689000063376251507011104332971059244436006890000640562515070111062971710592444360068900006211625150801116682471105924443600689000062426251507011162391371059244436007420000624660016070111644172010592444360080700007508525190901115932029105924443600782000060425501808011161254311059244436006890000628160016070110973979300238444360068900006246600160901110147220105923273600689000059946001609011092369820140344436006890000718362515010111737554801403444360068900006060575170901115868830002384443600689000062155751709011176955271059244436006890000621460016090110973407805968444360068900006153625150101110661111))
 (.node 1 (.leaf 420444360043100005541675130101109625374072434443600689000061536251501011177142510724344436006890000633762515010111603002610592375360045000006278625150101116545252080894443600072000057786751301011155605050730844436002260000636667513070110971264907619444360024700005704675130701116061079079394443600643000058686501407011157249420975144436006890000787552519100111546595708778444360068900007417450221001114766559070704443600790000066675751710011145016970646244436007900000617557517100111554444507614444360079900006958575171001115861782087534443600856117773764752110011160453050875144436008582632737647521100111572631109439444360085801047685500201001115893890)
 (.leaf 8945444360085819777570500201001115319875085604443600871243673104752110011158136420764544436009013350683447521100111595951308736444360090740026755475211001110343516105921513600719312986333902512011099770181059244436008324219867939025120110973860210592444360084511778971430231201115938975105921733600669397689425251912011098375081031044436005173313846350020120110988681010592196360083625367865475211201109936739105921053600828219266694752112011101320691059209836007420757896752519120110968983910592086360066436948963625151201117889375105920703600664189488795501812011175741481059213636006690104898462515120110961578510592220360068200008973625151201116153892))))
 (.node 4 (.node 2 (.node 1 (.leaf 10592220360084601048973625150501115786835105923473600888000089746001605011160307640960444436007900000899262515050110993268009604444360083900008973625151401118681863105921983600719258177665251912011162699061059219836007902940781557517140111002361410592198360077130487650600161201109850930105921983600689238387804752112011177641941059209136007712725852845022120111571288710592091360071932928573450221201115764143105920913600835383785734502212011158970691059209136008374046848845022120110962764110592091360074240468836450221201109684838105920003600782377487814502212011159975761059200036007713652883645022120111633671910592000360070420588614450221201110041636)
 (.leaf 10592000360070429408614450221201117431117105921613600704389982414502212011094173231059216136007790439857345022121110968175610592134360077900008710450221211109644610105921343600779000087104502212111159651761059213436007190000871045022121111622669710592167360076600004987270311011117245807105920003600719028350572703110111174101331059200036007040000496325032101110959339009271444360082815198853450221011115859123092714443600828028388534502210111160949951018944436008281048896745022101111599492410592000360083202838916450221011109882161105920003600828000087634502210111171711811059206836008370000878145022101110929273810592068360083212967385430231011109494685))
 (.node 1 (.leaf 10592000360079911775412310291011109684638105920003600742043951812703110111095399900879844436008030757586445022100110966152909469444360082422616119430231011109934233101204443600777000088994502210111158379530937444436008281519901770012101111015052909717444360080318089017700121011116154510078384443600777226189736251501111097186510569744436000280913414545022140111604382105697444360002400004266450220501116157081000004513600007000014474502201011174834590000045136000180000100145022100111576265500000451360002600000717450221001109161161032224443600011000019944502210011090239190322244436000010000251045022100110939081700000581360000200002446450220511109060363)
 (.leaf 581360000400002035450220511115647973000005813600006000025004502205111158274630000062636000110000166345022070110966348400000581360001400000229450221001109417273000005813600019000003034502210011173884710000058136000110000026145022100111607103800000459360001500000367450221001115854305000004443600007000002674502210011094130120000044436000001624242845022050110943426700000444360000000003421450220101109137174105924443600000000029154502205011093904170659944436000000000255745022051110938743306599444360010402832728450220511109295483051254443600000000057574502205011171553840512544436000000000440845022050111726308205125444360006900002020450220301109508998)))
 (.node 2 (.node 1 (.leaf 5125444360001800002126450220301109229801051254443600027000026074502205011092557180512544436000000000450745022050110933652605125444360084200008373450220501117732397051254443600837104884364502205011096307730244544436000190000361252519050110989653501218444360000000001967525190301109614907012184443600226000033435251905011159272000121844436000010000177652519030110933957203096444360022600002220525190501109794973000004443600946000077164502205011157896490000044436000000000758245022050111547181900000444360000000006801450220501109115694038944443600947000049234752105011150647400513544436008030000492347521010111550195207291444360080700008403450220501110160662)
 (.leaf 6800444360001000004252475210701109595182076674443600005000046484502207011158427960716244436000000000391145022070111568762905375444360098200004577450221001113325568051674443600982000041094502210011133255680773444436002670000556445022010111683700505327444360068900004984450220101119618184038634443600689000021695501801011096569250448444436006890000186655018150111722600603635444360028300001582600161501117380051002384443600148000023966001601011157934650023844436006210000329555018010111607334500238444360038400004631575170101116264137000004443600836000045974752101011097569210000044436006390000517345022010110990129100000444360065600005251450220101109921956))
 (.node 1 (.leaf 444360068900004233550180101109434429000004443600528000026365751701011170462880000058636001360000274355018100111563761100000626360065600003388500200101117252796041214443600069000031285751710011101790930587244436006863066883645022120110993813605872444360082800008853450221011116247578058724443600777000088184502210111162376590587244436006230000878145022101111634783105872444360083600008567390251011116395757058724443600837000085343702610111179010790587244436008370000818829030121111785899407743444360083700008437350271011110660629077434443600807000087814502210011162198960603744436008350000897645022120111635832806037444360083700008872450221201110515664)
 (.leaf 6037444360082400008916450221201117915597096044443600771000088534502212011178474430960444436007710000897645022120111753127207029444360068900008967450221201110797027070204443600334000086354302312011105349110512644436007710000786343023140111579034805126444360063400007947450221401109721659051264443600634000079094502214011101759130497044436006860000635657517010111061743504397444360063400005081270310101116341860043974443600643000056633502701011161344900439744436006890000670262515010111758320910592000360068900006702625150101109961629014044443600689000068807001201011176196230512544436006890000676365014080111001973505125444360089000007969450220801115831835)))))))
 (.node 32 (.node 16 (.node 8 (.node 4 (.node 2 (.node 1 (.leaf 5000444360100100007892450220701117196759032704443601037000074244102403011156019970382844436011590000766850020070110954267600238444360068900006185600160101117833032002384443600689000061856001601011158010860140344436006890000601662515010111013541810592327360068900005355625150101116358368058834443600627000055186501401011162841370596844436006890000542562515010110975270200420444360068900006372625150101117542800105923753600669000065666501401011104511320736544436000000000634670012010111094630109872444360000000006604700121001116598370079334443600605000077675002008011162792860993244436006890000784445022070111688831807965444360068900007630450220801116098745)
 (.leaf 7836444360079000006958575171001113968896098764443600656396087484302310011102305870873644436007663601858539025120111809661410011444360082521118683410241201115902828100504443600832350086684102412011161158581059215136008254096895457517140111016625810040444360082841368729430231201109768982101164443600742361387484302312011160099850929244436005570000848845022120111593333710592444360083526649000450221201116244423105924443600627299090276001614011154582271026344436005583344903965014140110979806210592173360083915085980475210501110154119105924413600853103763244752105011178535511059210536007822040821943023120111003660110592183360083726196048500201201117827967))
 (.node 1 (.leaf 10592280360079924728832525191201118092382105920983600686128688315501812011176606001059209836006560000895360016120110987700110592086360063400008982675131201116240027105920863600639103789826751312011100499431059213636006210436889162515140111638904610592136360070407498739575170501118098665105921363600799211189105751712011101374081059213636006690000881452519120110997400710592347360081906057737550181401117653482105923473600807000077645751705011160622121059234736008240103657862515050111601076410592347360080704366556625150501117576929096044443600799090464166001605011096401361059200036007793585852845022120110935337410592198360077134528488450221201109225529)
 (.leaf 10592000360069838258383450221201115803971105920913600766402084884502212011094248251059209136007793697881845022120111609567410592091360071933448710450221201110233400105920003600698271188184502212011158214501059200036007041606861445022120110972758810592000360070433208573450221201115775358105921613600771330188184502212011095699531059216136007820436887245022120110955706810592161360077902788836450221211117490229101354443600790236688184502212111179381271013544436007790904878145022121110961033510592161360077707498710450221011117317794105921343600779043686144502210111093308081059213436007711037881845022101110990573910592134360077900008763450221011109642987)))
 (.node 2 (.node 1 (.leaf 10592167360077913998573450221011115705842105921673600782027853833302810111095444721059200036007900000557335027101110962443609271444360083700008931450221011109883741105920003600825027888994502210111100848750944044436008370000871045022101110955030210592000360082804368853450221011109609322105920003600837103788724502210111096957101059200036007790278620745022101111600108810592000360054006056071450221011115890510087984443600689000055644502210111098314760879844436007990000607145022101111588489209103444360081900008980700121011109817639097364443600742000088704752110111098338571059200036001481286502941024120110959243105696444360003200004662450221401116162618)
 (.leaf 5696444360001704364974450221401117624904056964443600028043630334502214011174114100569644436000240000326345022140111762093405697444360000604362914450220501115983456051254443600010000021034502210011155661730512544436000140000153345022010111576661200000553360001800001262450221001109329681032224443600024000007744502210011095942050322244436000641037365645022100110943319900000444360002511662861450221001115703221000004443600144060534464502210011156640880000044436001130000348245022101110945614600000444360070402783940410241011117213712000005813600467000039093902510111155000160548844436000090000077445022100111515446705488444360000000000608450221001116906941))
 (.node 1 (.leaf 5488444360000300000296450221001109761674000004443600020000002294502210011096772990000044436000080000015745022100110975917700000444360000500000124450221001109846009105924443600005000005134502205011094371401059244436000570103442845022051110966566810592444360045011662280370260511109384747043974443600015179122034502205111157471280439744436000070278236845022051110947081905087444360000710373725450220511109649639050874443600000043634344502214111155969810508744436000000000475845022100110923403005087444360000500004491450221001115658440050874443600017043644914502210011156310710512544436000170605464845022121111563435105125444360000000004408450220511109290769)
 (.leaf 5125444360000816063372450220501109217267051254443600069090424664502205011172816470512544436000690000215245022030110919641106190444360002200002189450220501117269312061904443600000000024694502205011170458340619044436000000000327145022050110927202906190444360000400004504450220501109509743061904443600000000053694502214011174100560512544436008480000835245022140111592696705125444360083901038383450220801116104266051254443600867027873943702614011094398260512544436000220000400952519080111000453101218444360000900003576525190501117758695012184443600505000024945002005011099024300121844436010590000273547521050110979077701218444360010400001018525190501117123841))))
 (.node 4 (.node 2 (.node 1 (.leaf 3096444360003300001580525190501117233051030964443600048000053325251905011160683150000044436001570000459747521050110941154505572444360059201034744450220101116812673061094443600627000078504502205011160637680643044436003070000513645022050111562698807038444360001000004219475211001115967290073634443600001000045764502207011157843050736244436002860000464845022070111574743605639444360068900004744450220101116964029054634443600689000046624502201011163521720450744436006890000274652519010111522136503626444360063900002003550180101115903474041354443600400000018045751715011172057630420244436000260000163562515150111745215200000444360007200002206625151001109550778)
 (.leaf 444360068900002235550180101117558733000005863600450000026305501810011171102550000044436003840000277752519100111569356504121444360002600003128575171001117393062041214443600221000063165251901011101289150587244436008320000891450020100111044433610592061360061300008818450221201118217119105920613600517000088184502205011180375460702044436003410000852845022050111596740405126444360018300008916450221401118429752051264443600517000079284502214011104993460512644436006640000778843023140110966867504397444360108600007160350270501110279510051264443600000000056883502705011182295200497044436000480000603643023010111808308204397444360064300006013625150501117555301))
 (.node 1 (.leaf 4397444360068600007711575170101109898616000004443600689000076776251501011167671470000044436006890000773265014010111798207810592000360068900006528625150101115799780051254443600890000079474502208011160927990500044436008900000794745022080110993245504797444360109100008727370260701117712198047974443600946000090124502207011178102980359944436011590000761450020070111617873110592439360077700006123625150801109851624105924443600689000076646251508011160178901059244436006890000605262515010111610321410592444360068900005845625150101115848516105924443600689000059836251501011154920411059244436006890000623762515010111610937801403444360068900006230625150101110261669)
 (.leaf 10592327360068900006004625150101117573858057644443600450000054336751301011159815220582844436002320000539167513010111588145105766444360019800005391675130101115999054070734443600226000056416751301011161043130654844436006890000619862515010111578611607872444360004800006143700120101116213893072434443600060000063467001201011175559310886644436000600000664970012010111591094010537444360000000006744700121001115732569078874443600689000076604502208011154377930815444436006890000620745022070111595251507166444360068900005788450220801117146317073674443600689000070574502208011161806740793144436008580432702850020100111577352508518444360086508967202430231001115986045)))
 (.node 2 (.node 1 (.leaf 8198444360086224147134475211001117517352090764443600704235073764752110011155871730978744436006432785856841024120111541239509795444360082425568834475211201115982441096884443600837269588014502212011159271470925244436008493756852641024120111579822309678444360084829528712430231201115033227102514443600845159288994502212011157043940937044436005402414841643023120111574373709740444360077713888781450221201116177654102634443600766216089444752112011097701271026344436007422350874350020120111771985310568444360079938727010475211201116224166105921733600704399287264752112011162622641059217336008532414645747521050111092026410592444360084534476194475210501116294188)
 (.leaf 10592444360083533316755475210501117990583105924413600825149451964752105011162376281059244136008322556775447521050111596937710592441360074222947613450220501115951502105921053600828339978384502212011177919411059210536008373208761345022120111017944210592105360081937106903475211201116147436105921833600799391667554752112011162619201059218336008243180494450020140111010787210592163360084225568193575171401110244161105920983600803281747805002014011162478921059216336007661592471552519140111640422910592098360074220305102475211401117758503105920983600669138884994752112011161894291059209836006981494878145022120111612680710592098360069811558982675130501110027592))
 (.node 1 (.leaf 10592086360063400008970675131201116200604105920863600634241489216751312011177881021059213636005920000892265014120111612548110592122360043100008724550181201117496380105921363600627169472255251914011176119451059213636007190273716652519120111006322310592136360068200008584550181201109879827105922203600719000086354302312011097704341059234736008360000738543023120111579749310592347360077700007548475211201109921901096044443600825000064244752114011174156890960444436008191277645355018140110979498709604444360084438797687450221201109995264105920003600807354276565251912011180058061059200036008373180741745022120111621533110592000360074230527358450221201110177854)
 (.leaf 10592000360070932087358450221201115952312105920003600835295269974502212011156883021059200036007193493848845022120110938352010592000360079937078219430231201115528520105920003600837326783834502212011170734171059209136007663132824145022120110952055210592000360070433318528450221201115593357105920003600704127785284502212011172032091059200036007093310881845022120110987275710592000360076628178763450221201109633493105920003600771027383834502212011156090071059216136007772294883645022121110977535210135444360071408968748430231011115813830101354443600698000088204302310111158712901013544436006690273887143023101111569671310135444360068902738711410241011115773150)))))
 (.node 8 (.node 4 (.node 2 (.node 1 (.leaf 10247444360068200008597390251211116329714101414443600779043287634502210111097888151059213436007790000871045022101110980707910592134360083500007476290301211109666408105921853600714102469113502710111098680571059216736007090000680831029101110985956410592167360083713886143450221011110073983092714443600824027362054752110111098867690927144436008280743886852519101111604082509440444360083600008849525191011117622344094404443600837000088364502210111160115950944044436008350000880047521101111610423709440444360082500008763450221011116099378094404443600837000087104502210111097045371059200036008370102866545022101111728981610592000360083708968763450221011115739436)
 (.leaf 10592000360080700007718450221011115690225105920003600790000076874502210111098710410883744436008240432766045022101111595842608837444360080300006234450221011109868056105920003600766000058644502210111097185370879844436008320000589443023101111746579708289444360082800005724450221011109819694082894443600771027355644502210111101353700919544436007820000742143023101111575136510592018360077912778851500201011110296853093354443600777149488795501810111160623311059200036007090743864150020100111576593410592000360063907434666290301201115682650056114443600001000028354502210011100925790569644436000000000270845022100111571465805696444360001002732970450221001117211633))
 (.node 1 (.leaf 5697444360000500002369450221401109532719056974443600001000016084502208011094762630000055336000210000127945022101110973137003222444360000900000898450221011109539444032224443600027000011534502210111157013280322244436000220000193945022101111571792805537444360002800003831450221011117293451055374443600322000044914502210111169569040553744436003220000504145022101111504740305537444360034100005215450221011117194596000005813600007027336004502210111171965650000058136000070000202745022051111559060500000581360000900001594450221011115652327000005813600009000002074502205111153931540396344436000250000126245022100111588771700000581360000900000261450221001109857195)
 (.leaf 581360000000000303450221001115950450054884443600000000006144502210011094591121059232936000140000156145022100110980467010592329360000004321886450221001109559463105923293600000000018624502210011156855790439744436000220000177043023051110966263005087444360000400001607450220511115820773050874443600000000023784502205111174607030508744436000040000323545022100110934949005087444360083533996259350271011109659698050874443600782102472483902510111093399480512544436006050432718941024100111562416805125444360061700004304390251001109450633051254443600226000044854302310011171819280512544436001130000377045022051110936857405125444360001401023093450220501109212944)))
 (.node 2 (.node 1 (.leaf 6190444360000800003301450220501109484485061904443600000000048104502205011173889240619044436000040000495945022140111592163306190444360063900004943430231401109688861051254443600824000050194302314011099251670512544436008370000455745022140110939133301218444360002200003576525190501116021564012184443600549000019085002005011098620880309644436000000000140552519050111578891000000444360000000001553525190501109579481000004443600009000054415251905011159526770000044436008852100712647521140110979518006472444360000000006587525190501109616739064724443600004000041645501805011094358910446044436008450000381145022010111389759907361444360000410246776450220501116207426)
 (.leaf 6970444360058508966426450220501116028973063194443600005000034894502205011097635340696444436000600000422845022100111532293106762444360084608967582450221001115513427093574443600000000057244502210011162290840618944436004480000474445022010111639175304707444360068900002835450220101115859059045704443600689000027214502201011158881750478244436006560000252347521010110989016004928444360068900004019575170101116219386049514443600517000022075751701011173912040401844436003340000198860016010111720526800000444360068200002228550180101109716138000004443600819000038114502201011107418110000044436007090590425745022010111754465800000586360068900003203550180101115759567))
 (.node 1 (.leaf 586360068900002838550180101115577042000004443600467000029895002001011158249430000062636004860000298052519010111008667800000444360013400004805550180101115758110041214443600807000075974752114011177292010458344436007710000857345022120111033471605872444360083500008897500201011110674825066644443600807000086784752110111103247880715744436007990000861445022120111034397006037444360081900008916450221201110546250080124443600779000088854502212011161477691059244636007710000889945022120111045116210592609360077100008944450221201116106272105920613600719000088854502212011162585700512644436006130000894057517120111046274605126444360042300007704410241201117838444)
 (.leaf 6814444360068900007539390251201110123660054104443600689000064486251501011160672020541044436006890000621367513080111575410200000456360068900006471700120801114927503000004563600689000064126751305011151615120000045636006890000676462515010111727264805125444360068900006764625150501110262720051254443601011000077044102401011103352200479744436008240000748739025010111569420303828444360105400006534500200801115556436038284443601159000066125002008011160910890359944436011550000634350020080111572194603599444360068900006336625150801116258145014034443600689000064336251501011179176890140344436009780000642867513010111747915510592439360107200006456675130801118050428))))
 (.node 4 (.node 2 (.node 1 (.leaf 1403444360106500006418675130801117666266014034443600907000063036501408011160942461059244436006890000653862515080111577256410592444360068900006500625150101115976341105924443600689000064156251501011179779221059232736006890000555062515010111594032808388444360022600006606675130101116247478061394443600689000068494502208011109175440692844436006890000574145022080111587937106584444360068900005251450220801115913351075394443600670000060974502208011161492610789944436008580000697250020100111649232608896444360085823987547500201001116034005088054443600858088874615002010011158970370842644436008582281727350020100111612588809413444360068907378488450221201109766478)
 (.leaf 10263444360068935798665450221201109913549102634443600698353687804752112011177028221059225436008193776713447521120111048187810592254360084400006755475210501116270301105922543600858026864835002005011163170731059243336008580000659250020140111622233510592444360085800006457475210501116213215105922673600836193564574752105011102555621059226736003071581788541024120111019934610592267360071918528137500201201115948132105921053600856147865925002005011164590071059216336008582449666947521050111014958810592163360070414788040475211401110774185105920983600807101746814752114011105115331059209836007991684848845022120111048612410592098360068938218780475210501110208083))
 (.node 1 (.leaf 10592136360062704298890650141401116268236105921563600714026887576001614011098573971059222036007190737749052519120111016550910592347360082800007417450221201109764134105923473600742114571904752112011174555831059234736007660590716652519120110993468710592347360080730357714525191201117568173096044443600790114564195501812011099623490960444436007993594626947521120111015960710592000360083236636426450221201115963882105920003600819337976024502212011160275461059200036007093562755045022120111754108510592000360069828987417450221201118292262105920003600842367571164502212011172714081059200036007904011699745022120111574022510592000360077127278528450221201109686405)
 (.leaf 10592000360069837938317450221201117201117105920913600704101782414502212011094529551059200036007143690848845022120110959479810592000360077914788781450221201117374127105920003600777277184384502212011095026741059216136007990888888545022101110993044210141444360077901018852475211011116137182097344443600777059088695002010111100106960973444436007770000886655018101110989025009734444360071402688801450221011117726332091544443600777000087795501810111159485271059213436007790000852845022101111573436410592185360080301018295390251011109616156105921673600790088886784752110111101021850944044436008190000623150020101111015395009440444360071900006391550181011110058460)))
 (.node 2 (.node 1 (.leaf 9271444360082400008894550181011116062414094404443600799000088665501810111099190640944044436007930000881647521101111024291510592000360083608888815500201011110185935088374443600782000060714502210111102901620879844436007930429586445022101111590056108289444360083502685488410241011115815095082894443600836000056484502210111096190290815544436008480000523143023101110975758508155444360083700005724450221011116007576098024443600779000068893102910111160024970561144436000012333348945022100111007546805611444360000000002531450221001115811359000005903600008000024964502210011100616450000055336000220000093745022101110990147205691444360002500001375450221011117384210)
 (.leaf 4154444360001000001870450221011109670211055374443600002000018864502210111095141940000058136000130000090045022101110950317903963444360000000000267450221011110051147054884443600000000012884502210011099407980548844436000040000193545022100111752045505488444360000000001964450221001110106909054884443600008010116364502210011157491731059232936000010000265345022051111707340505488444360000401014408450221001115647043000004443600104059026774502205111097786060244544436000270000128243023050110996004502445444360036600001657390250501109742634050874443600000000011994502205111097307510508744436000000000187445022051111737636505087444360001100003489450221011109836053))
 (.node 1 (.leaf 6667444360056700006638430231011110172292051254443600366026879224102410111096729550512544436000002281377045022051110948166606190444360000000003770450220511109584132061904443600144000045704502205011172134020619044436001130000513445022120111011040506190444360001800004959450221401117473333051254443600033000048104502214011099598640512544436008370888822033028120110964362405125444360085300005788450221401109433085051254443600116000037995002005011179896540121844436000000000282452519050110966846300000444360000000002054525190501117225374000004443600000000009965251905011171317530000044436000220000659352519050110947616400000444360027300007318500200501110192472)
 (.leaf 6472444360000005906613550180501109728499064724443600000000043055501805011098366870819244436000000000541155018080111582757907230444360000000006144450220501116107721076214443600357010183174502205011162295920666144436000110000365645022050111010286306683444360002100003771450221001115523542065204443600952000070384502207011150458220481444436009840000412645022100111451024005271444360068900004257450220101115874414047844443600689000031474752101011149592980481944436003340000256457517010111588815504705444360022600002591675130101116026452049664443600742125543165751701011163003670492044436006890000400655018010111599304204274444360077900002650525190101115299741))))))
 (.node 16 (.node 8 (.node 4 (.node 2 (.node 1 (.leaf 4202444360047700002339575170101115954093000004443600698000025565501801011098793211059244436006860000382147521010111716945510592444360083500004408450220111116044570024454443600686296039524502201011158525440244544436006820000368050020010111574230000000586360076600002257550180101115749901000006263600623000029805251901011101029680000062636007190000298950020010111009126104583444360061700007017475211001110288435066644443600836000082414502210111177369920666444436008370000839647521101111799615206664444360083600008539475211011117533264058724443600836000086144502210011183971580715744436008360000871045022121111071938007157444360066400008853450221211116132132)
 (.leaf 7157444360083700008712430231211110237988060374443600836000088724502212011176660020801244436008390000874239025120111038225510592446360077100008944450221201115962485068144443600719010072983502712011105874740681444436010530000658547521050111781921904397444360099400006093410240501116134045035544443601018026260294752105011171158330355444436010810000570952519050111755105504397444360064301005554370260501110604726000004443600686000060205501805011110557080000044436006890000635162515050111053150600000456360068900006415625150501110862288000004563600689000058826501405011104526360512544436006890000672362515050111771000305125444360068900006763650140501116088710))
 (.node 1 (.leaf 5125444360068900007445650140501110124509105924443601009000072253502705011102969891059244436011150000707631029050111623837704797444360066900006511475210101117668601038284443600634000065645002001011157761580000054836008440000653450020080111035287803828444360096800006395500200501110163892105924443600689000065286251508011106910631059244436006890000625762515010111601114801403444360068900006415625150101110468123059014443600689000060766251501011160750860776244436006890000660862515010111651219008627444360085800007928450220101115077208074904443600858000077184502201011156921970724144436008580000766045022010111589487306994444360085800007602450220501115765534)
 (.leaf 7338444360067400005852450221001116197909062834443600689000053044502207011161102360728244436006890000574145022070111009143906076444360068900005477450220501116058266059634443600654000053935251905011154514250978644436006890000670252519080111556530210024444360068900006745525190801115156284074154443600809000052145002012011152668860830444436008371365808043023120111558946909163444360083705828548430231201117090421094154443600689058286144502212011157714350897544436006891255843845022120111506513009296444360068900008528450221201117052377094134443600689125587634502212011101339801059214236006170425843845022120111014371110592254360082501008191475210501111132550)))
 (.node 2 (.node 1 (.leaf 10592433360070913658191475211401110696426105924443600858113461944752105011108138531059244436008463599856652519050111050851210592267360054917537997430230501109976646105922673600617183982445501805011175352251059244436008281998532152519050111631522110592163360084408805305500200501110380713105921633600832156952764752112011115102351059244436008441839804047521120111840909110592444360085819985102475211401110244371105920983600832226966694752112011103041571059212236008252269806250020140111764303310592122360084222697547500200501115966462105921223600842073274285002014011161918891059212236007900000734050020140111798238710592136360071400007805525191401116083791)
 (.leaf 10592156360064307328062500201401117526272105921563600803156986784752114011104562071059218236007901998737647521120111776973910592220360071431587105525191401116148802105922203600719101071215501812011177758551059218236008071753705745022120111594423510592182360082520747174450221201116073397105923473600742288774174502212011178677571059234736007092757741745022120110954863010592000360070434906207450221201115865844096044443600766356961734502212011160239831059200036008242827617345022120110986709110592000360070433937742450221201115776035105920003600698330873584502212011176832671059200036007773979705745022120110994694110592000360070425778573450221201109979693))
 (.node 1 (.leaf 10592000360070422698438450221201115360523105920003600704288783174502212011152988611059200036007043762838345022120111716898410592000360071930898241450221201109537591105920003600779301588155002012011158699741006344436007900100881845022100110987042610063444360071901008803430231011115900530101704443600790000088724502210111103725370973444436007660000889260016101111018237409154444360077104258831550181011115746895105921343600766000086945002010111157838891059213436007770000851350020101111558291110592134360077900008555500201011117344769105921853600779000087104502210111098419781059216736007790000874350020101111013845209440444360082800006299550181011117555894)
 (.leaf 9440444360068900006385625151011110222764094404443600835000089076251510111103184790944044436007900000889162515101111630791309440444360079000008771625151011110159510094404443600790000088136001610111180382070916144436008360000888152519101111098898910592000360083500006140525191011110508420105920003600803042562054752110111159184150883744436008350000597250020101111757382408837444360083200006048500201011110219427088374443600779000062704502210111164048470883744436007903089623445022101110996953108837444360083600005755430231011109976815074554443600844010054084502210111097745530906944436007900000511033028101111629434010592018360080300006735330281011110155887))))
 (.node 4 (.node 2 (.node 1 (.leaf 5611444360083508807090430231011115954640056114443600837026269394502210111157291120561144436008280100525145022100111587084300000590360001600002023450221001109933535000005903600026000010324502210011094910670000059036000250000036745022101111587578300000590360001700002092450221011110008796056914443600021000021304502210111098856500553744436000040000257145022101111739923805537444360002200003776450221011117346392055374443600825042549594502210111168568190553744436008030000488345022101111491398105537444360077700004535450221011116938805055374443600714000047865501810111100225940553744436008280000462752519101111769710605537444360001000001768450221011109931442)
 (.leaf 5537444360001500001646450221011115781926039634443600001000003454502210111174819110462344436000180000300245022100111747076105488444360002100003741450221001109740652054884443600011000024814502210011096103010548844436000130000203545022100110954304505488444360002200004408450221411109845536000004443600006000023694502205111100189190000044436000000000060945022050111000196800000444360001900001578450220501110149910024454443600004000007444502205011096742990508744436000030000135545022100111744862705087444360001108803139450221011109723124066674443600000000054904502210111154799760666744436000110000649545022101111722992206667444360077915698395450221011109905506))
 (.node 1 (.leaf 7910444360077921377922410241011117344124051254443600576000052304102410111158313490512544436000080000481045022100110962151005125444360000000004810450221001117318382051254443600000000039234502205011095904710619044436000000000422445022050110984840106190444360000000005134450221401110037727051254443600013000049594502214011103925090512544436008391667840839025120111561145505125444360083700005179450220501110388219051254443600634000041764752105011105853540121844436009510000399550020050111600250401218444360002400003799500200501110255293000004443600192000044304752105011176049180000044436008560000863445022140111009522400000444360071900005564450220501110568612)
 (.leaf 444360024700007496450220501115835155000004443600000000068185002005011157177760000044436000000000658752519050110976100306626444360000000004164550180501115480367072484443600000042561444502205011160190020762144436005850425838345022050111587742708512444360001000004577450220501115769467075714443600000000047444502205011158244550737144436000000000410945022140111522969406688444360044300005264450221001115165442095114443600909000088534502210011153046670951744436009090000885345022100111530466706212444360014700004316575170101115643412055644443600623000048305751701011154589390545544436001760000390165014010111584457904399444360068900002658550180101110620039)))
 (.node 2 (.node 1 (.leaf 5041444360070918254530625150101116760266053924443600858252451964752101011161064890000058636009520000321352519010111026390200000444360096100004000500200101110862794000005303600621000033505501801011174881120458344436007990000377347521010111781455004583444360084400007825430231201118268514071254443600835000087634502210111108707631059244536008350000866545022101111031278110592445360083500008763450221011115882352105924453600835000088184502210111105873510715744436008280000848845022101110974439810592444360083700008573450221211117565258105924443600803000085734502212111178341170715744436008370000861445022121111798117110592444360083700008763450221211116009742)
 (.leaf 8012444360083600008836450221211110661336068144443600719000088854502212011105017250681444436007420000888152519120111069390806814444360100200006612550180501110694542043974443601057000066345251905011162129420355444436006890000586362515050111031259503805444360068900005933625150501117813974038054443600689000060766251505011112865900000044436006890000607662515050111774585500000444360068900006385625150501116009499054104443600689000064756251505011162429220398144436006890000644862515050111606578500000456360068900006032650140501117276105039814443600689000057356501405011172779150398144436006890000687362515050111563987603981444360068900006873625150501116084327))
 (.node 1 (.leaf 3981444360068900007361625150501115855682039814443600669000076024502205011159080810398144436006820000561250020050111745776405125444360068900005785625150501117667988051254443600689000072346251505011160559660103544436006390000656450020050111656483700000548360063400006483500200501110647844000005483600904000064555002005011182119120140344436006340000653450020050111658817805125444360068200006580600160501110525140014034443600951000066296501405011159074140140344436009290000670065014010111045387901403444360068900005863625150101116153376105924443600689000059336251508011102693991059244436004770000609665014050111757368510592444360062700006032650140501117892719)
 (.leaf 10592444360068900005785625150101110417116070424443600689000063856251505011180791880636044436006890000607662515050111760370705981444360068900006641450220501114893597054844443600689000060584502205011151321340560044436006890000611245022050111553178506381444360068900006939450220501115588839063454443600689000069394502205011161049320659544436005700000681345022050111589444907047444360085800007602450220101116486599062554443600858000072974502201011158095070703544436008580000760245022050111577958008780444360085800007769450220801115770726096754443600858000079474502208011154603530679444436006890000620745022080111062510305917444360068900006048500200501117235220)))))
 (.node 8 (.node 4 (.node 2 (.node 1 (.leaf 5917444360068900005393525190501115653686078834443600689000065635251905011158009870743644436006890000602947521080111604036408704444360071100005488410241201115622323071774443600858099952145002012011152668860898244436008250255720243023120111580996209153444360082512487321430231201115900850088554443600835025582624102412011161416261059214236006230000851143023120111007836710592433360079908728441410241201110781357105924443600844368381744502214011162119401059243336008443197802045022140111787254010592444360082824287781500200501110485485096044443600664155874553502712011106408941059240736008580725800835027120111775718710592267360085820628357430231201115708980)
 (.leaf 10592444360081937958438450220501117508716105924443600207124880804302305011103227701059244436008491558486250020140111039310710592163360083213524616500200501116125249105921633600846057450084752114011102579031059216336008460872561443023120111022167110592163360085805745356475211401116420778105924443600858155854294752112011178308731059244436008560099527647521120111813933910592444360083722577754475211201118129680105922933600601057469675002014011101663571059212236006051124696750020050111794615910592122360080707256565500200501116202648105923283600793057471524752114011158453081059232836007040000732047521140111593239310592156360068600007340500200501110658045))
 (.node 1 (.leaf 10592182360071414587521475210501110349475105921823600790025571744502212011162871641059218236008283463711645022120111607871010592000360076631236997450221201110080969105920003600819364661734502212011102240621059200036007662947578845022120111584968910592000360080329075864450221201115757867105920003600825327660104502212011102999761059200036007713481606452519120111036973110592000360070429477297450221201109910880105920003600704281683834502212011154473851059200036007712947838345022120111537742710592000360077926108432525191201109601913105920003600779335783834502212011171031151059200036007792786843845022120110963283410592000360077730428622550181211117394913)
 (.leaf 10592161360070905748803430231001110016194100634443600669042287114102410011104439021006344436006640000876443023101111012702010170444360070400008885450221011110532553101354443600714025588975002010111101527081055044436008070000896850020101111601110809734444360076600008950650141011110673175091544443600807000086115251910111097868820990744436007991458869450020101111576534709907444360079907258743500201011117411849105921673600790057486354302310111175662970944044436004000255578845022101111010104109440444360079000008892600161011110667572094404443600771000088766251510111162723350944044436006890000885150020101111075545809362444360080700008799500201011110352515)))
 (.node 2 (.node 1 (.leaf 10592000360083500006001525191011110273534091484443600835000059235251910111159345900914844436008350000727350020101111755833408837444360080300007264430231011110304138088374443600719000056233502710111158897410883744436008280000607145022101111598957909148444360082504226071450221011115864649088374443600807000061434502210111159743070883744436007790000603643023101111579038808837444360083500005788450221011110097897104644443600839000055644502210111099500590745544436008370000547745022101111576489207455444360083700005173450221011117328073081554443600837000057884502210111158987380821644436008360000542141024101111582915308216444360082400005488410241011115713009)
 (.leaf 10592018360083500005455430231011116052728105920183600835000056894302310111176379861059201836007900000650231029101111765624510592018360044200006271430231011110140907056114443600004042258654502210011160799450561144436000080725586545022100111580136905611444360004808724045450221001110445751000006053600022000027154502210011100605010000059036000260000234745022100111719259000000540360000800000303450221011110117056056914443600247000032874502210111172879750569144436004500000412645022101111599736305691444360060100004810450221011110130098056914443600157000045704502210111096578870569144436002070000441545022101111582564105691444360006000005854450221011115759931))
 (.node 1 (.leaf 6752444360024700004810450221011115330100061374443600793000046484502210111099849570553744436000110000041645022101110998490500806444360002100000383450221011110078908046234443600018000017354502210111098267740548844436000160000440845022101111592820305488444360001000004262450221411110093589054884443600016000037034502205111101069090000044436000090000198645022051111002905105087444360000000001919450220511109866773050874443600000000020684502210011098052620666744436007820000566145022101111047820406667444360083700005221450221011117843877051254443600000000045704502205111097612600619044436000000000457045022051110990334806190444360019800004485430230501115658723)
 (.leaf 6190444360001300004883450221201110068971061904443600664000046974102414011098560820512544436008370255491245022050111759573905125444360024714584591475210501117745940012184443600027000037594502205011176832310000044436008440872857345022140111035207806472444360000000003035550180501109884201077354443600000265671354502205011160117440762144436000100422739245022050111038519708983444360000000005724450220501114882047076334443600000000045774502210011148627100950744436009120000885345022100111520490909526444360090900008853450221001115304667066294443600169000048175501801011156340250615944436006890000547855018010111521752004569444360068900003200625150101115706837))))
 (.node 4 (.node 2 (.node 1 (.leaf 4639444360069804182908625150101110516332053474443600888009853564752105011163250280497244436009372597745052519050111034966602100444360098002452543525190101117819605021004443600982000022145002001011179537361059244436009820000360850020010111577423400000444360098200002638500200101115483317000004443600896000039634752110111100790370244544436009610000352852519011111600981300000444360098000002902500200101115966199000004443600982000035665002001011107075700000044436006340000427452519010111049417604583444360082500003085475211001117724116105924423600842000077424502210011177915671059244436008360000857345022100111063605610592444360083500988818450221011117686992)
 (.leaf 10592445360083500008801450221011118006565105924453600835000086654502210111176768661059244536008350000871045022101111590702810592444360083600008818450221011110201178105924443600836000088184502212111105762061059257036008350000880145022121111630269010592570360083500008853450221211110714965105924463600835000088854502212011180775101059244636007710000902257517120111085907410592446360068900988899450221201110679688085884443600709000088994502212011183292340858844436008240000897645022120111641964406814444360083700009006450221201116192142068144443600870009888644102412011110107640681444436010140098665750020120111071631303554444360114400006764625150501116163984))
 (.node 1 (.leaf 3805444360068900006159625150501111101246041614443600689000063856251505011102237880398144436006890000729862515050111037040603981444360068900007298625150501115697138039814443600689000058636251505011101140340512544436006890000615962515050111798402910592444360068900006415625150501118044179105924443600689000060766251505011112631460479744436008650000553233028050111619913601035444360064300006300525190501110941934051254443600634000066125002005011182466160512544436006890000663062515050111081873905125444360068900006748625150101110563366105924443600689000063516251505011170111681059244436006890000638562515050111630726510592444360068900006076625150501111024566)
 (.leaf 5952444360063900005804650140501116038194059524443600558000064136501405011166495760595244436005170000618665014050111823226005868444360068200005735650140501111328320064344443600689024571665251905011158665980620044436006890000664145022050111039111605492444360068900005977450220501116102468058664443600689000066914502205011157707630634744436006890000681345022050111046610607025444360063400006737450220801115284723077694443600656000071744502208011157913250746544436006860000681345022050111776958406794444360068907206737450220801117996389069204443600689000059304502210011104234090893744436006890000636445022080111595617408356444360085800005883475211201114905978)))
 (.node 2 (.node 1 (.leaf 8978444360077704186089475211201115786849079604443600839072055854752114011156978400807444436008581339573947521120111605336508531444360083920515573410241201115600201088194443600837099267584102412011105237560872044436008370861667541024120111767360108720444360083504186835410241201115874994088674443600825024581924102412011157830850947044436008350418869843023120111650654709470444360077708618801450221201116328257105921423600779217486264752112011160636181059207736007990861801639025120111071573810592433360078211127953475210501110598030096044443600467224278164302305011179676620960444436008352645732537026050111058799210592163360082815474862500200501116016129)
 (.leaf 10592163360083202455305500200501117802438105924443600793000054294752112011110480171059206936005581732763947521120111602344610592069360060100003492550180501110088194105923283600413000062285251905011159788501059232836005280861528752519050111028614510592328360065600986516500200401110448514105921823600623024566335751705011175927251059218236006340000592557517050111770102010592182360071900007569525190501117421606105921823600793205184484752114011107781241059218236007193289547745022120111543264710592182360068638245564450221201116149034105920003600793321261434502212011158180401059200036008373743607145022120111787411010592000360070433905930450221201109935702))
 (.node 1 (.leaf 8756444360077733286010450221201115810621089734443600709367371164502212011098609031059200036007043787723545022120110987365010592000360070422427116450221201117490597105920003600704241869394502212011097698491059200036007792355843845022120111565775210592000360077902458383450221201109959393105920003600779189785284502212011155914951059200036007823824876345022121110997198009478444360062317328668410241011118039555105384443600643024587634102410111102508821011244436006820000888545022101111734137410112444360070900008999650141011116034003101124443600689000089996501410111161046111011244436007140000901770012101111593573310112444360071400009011700121011116096949)
 (.leaf 10199444360081900008976550181011115922940091544443600825072087637001210111101618960990744436008240000881360016101111752958509154444360081900008779550181011117316386099074443600835041886144502210111102346390944044436000260000578845022101111018410709440444360065600008665450221011116155988094404443600621000088014502210111158895580936244436006430000880145022101111045191809362444360062100008801450221011115912737093624443600828000088145251910111102290321059200036008350000716652519101111803483409148444360083500006234450221011110174135091484443600835000059194102410111161138420914844436008490000508035027101111594007508837444360083700005281410241011110058176)))))))))
 (.node 128 (.node 64 (.node 32 (.node 16 (.node 8 (.node 4 (.node 2 (.node 1 (.leaf 8059444360083900005231430231011117435377104644443600837000053384502210111158115520805944436008370000540845022101111569803908059444360083600005083390251011115610423080594443600836000056793902510111173305080805944436008350000547737026101111761169908059444360082400006207450221011115890904080594443600019000058644502210111157432321059201836000070000547745022101111736515810592018360055807205564450221011117427816105920183600400000055734102410111099380371059201836000040098693945022101111587639005611444360010000006939450221011110016240056114443600027000032974502210011106455200561144436000320000439545022100111746937400000580360002700003887450221001110324813)
 (.leaf 580360001000002681450221001116125108000005803600014000019964502210011158201960000054036000090000221845022101111007381800000540360000000003008450221011116026149056914443600116000024074502210111103396010569144436008350000504145022101111029518205691444360001500004408450221011110524421053694443600334000043814502210111102262970462344436000040000503845022101111023454507084444360000000006138450221011109855512054884443600019000017204502205111103936050000044436000080000131845022051111743176205323444360000000002048450220511115812462053234443600000000023304502210011175394940508744436000000000222445022100111581073206667444360001000006258450221011117266197))
 (.node 1 (.leaf 7794444360011300006495450221011110245678077944443600819000058234502210111103388400791044436008370000571545022101111051655805125444360000000004648450221201109975544051254443600000000045704502214111156383390619044436000001339449145022051111734730006190444360000000004262450220511109731130061904443600639000049884102412011157332310512544436008390000498341024140111581213905125444360001500005584450220501110567452051254443600617000056614502205011163727820512544436000330861504145022050111753202605125444360010000004844450220501110360263051254443600885041864904502205011173972860512544436005760720611245022050111008940800000444360083700004984450220501117670611)
 (.leaf 5125444360000000004940525190501110173269059754443600000000037065501805011099548950825844436000000000761345022050111501102207719444360000000007135450220501115689488081474443600000000074964502205011163519660470144436009340000490445022010111520134004373444360091900004123475210101115912869043574443600908000041525251901011155747140481744436009340414830252519050111520440902100444360097500002194525190101110762075000004443600982000021875002010011173950220244544436009820000429352519010111102950900000530360063400005034525190111110911739000005303600824000038654752101011106593481059244436008370000793445022100111049268710592445360083500008899450221011117808470)))
 (.node 2 (.node 1 (.leaf 10592442360080300007838450221001115918900105924423600803000080204502210011107443231059257036008350000878145022120111593322310592446360077100979015600161201117959006105926263600771009789164502212011165409300858844436007930097898645022120111056709506814444360079000008941550181201110956976068144443600877000086183502712011109372960843944436011370000809265014050111029797604161444360068900006013625150501111157308039814443600689000057856251505011112207560398144436006890000546662515050111709583603981444360068900005933625150501115482021039814443600689000058636251505011173393790398144436006890000586362515050111824576610592444360068900005550625150501118132487)
 (.leaf 444360068900005863625150501118118512000004443600709180359876001605011177912040479744436007710000610757517050111590889105125444360069800006321600160501118297877010354443600686000060766251505011159165530103544436006890550607662515050111622156505125444360068600007504625150501115965763038284443600669023367256001605011108172870512544436006890000672265014050111616549205125444360068900006604700120501111572773051254443600689000066076501405011158384651059244436006890000676462515050111764120510592444360068900006578625150501115905004105924443600689000063516251505011162601591059244436006890000641562515050111608469210592444360077100006451575170501116042364))
 (.node 1 (.leaf 6969444360068900007544575170501116098911065404443600828055069753902505011160274110702344436008440000671335027050111557048005744444360085600006157330280501116131797057444443600837000063923702605011104391340633344436008350000565341024050111617071206046444360084800005386390250501115796787067584443600819000059624302305011143136760566144436006690000605845022050111514014307465444360068600006010450220701110667575075444443600689000062704502207011176710650692044436006890000639945022080111780782707106444360068900006173450220801110315796077094443600689000064264502207011174742780786044436006890000633245022070111570086608066444360068900006458450220701117805253)
 (.leaf 7813444360068900006143450220701110596818077114443600689000059304502208011164007040954644436006890000633245022100111332556808288444360084811007075475211201116393345078394443600803041469275251914011109925750837644436008350000704752519140111595936708625444360084520395381430231201117617022084724443600837098655734102412011158362510862544436008441230575543023120111056168910592444360084216345755430231201116009388105923893600839000069244302312011103703471059238936005760849826241024120111028592610592389360082514378748430231201117907463105920773600689009789574502212011179720331059207736006860414881845022120111620886310592077360080300008192410241201110393748))))
 (.node 4 (.node 2 (.node 1 (.leaf 10592077360077909867661350271201117831285105922543600799023380494102414011160299041059243336008241634769352519050111043922710592444360087821624981550180501110478223105924443600849188844214752105011180031770960444436008072162730035027050111793388410592407360077124967500370261401110867781105924443600682362786654502212011107157741059206936007422039756741024140111047560804176444360062300005002575170501110180179000004443600634000066335751705011104781170000044436008073416693945022120111590221010592182360079335505338450221201115874468105920003600803337754084502212011100304761059200036007043106593045022120111005140908756444360070431067297450221201110115868)
 (.leaf 8973444360070426315930450221201117512360105920003600704292057884502212011155852011059200036006984082572445022120110993824910592000360070438457297450221201110157992105920003600704416570574502212011155680750840944436007044176693945022120111578326208409444360070441576737450221201115873526105920003600704394868844502212011174053621059200036006984006693945022120111011255210592000360077929558438450221201110240324105920003600779229088364502212011158532321059200036007790550887245022121111569626810592000360071418888763450221011109978525094784443600639245286793902510111106889900997044436006820715874843023101111625495110112444360070400008916450221011118184337))
 (.node 1 (.leaf 10033444360077100009028700121011116125573105924443600567000088815251910111161684370986744436006390000899965014101111066957909907444360077100008831550181011110409358099074443600704000087104502210111104396461010644436006210000880145022101111802229210106444360081900008853450221011110684676095584443600799000086144502210111105414830955844436006170000880145022101111598779809440444360046700008818450221011110879145093624443600782000074174502210111107451050914844436008070000581147521101111049328109148444360082400006911350271011110255287091484443600825084955963502710111107274870914844436008360000532639025101111050484708059444360083600005313350271011117459555)
 (.leaf 8059444360083500004887330281011115875833080594443600835023349573302810111103733410805944436008350000511033028101111026069208059444360083500005383330281011110499157080594443600613000057244502210111157077760805944436001440000564845022101111542930810592018360082400975930450221011110227815080594443600072009769394502210111102107500561144436004000000699745022101111055600105611444360055800006884450221011110447504000005803600283041485734502210111162975890000058036000260000466245022101111608974300000580360000900002358450221011115763606000005403600005000038674502210111157808020000054036000010000255345022101111020197500000540360001100002511450221011117593877)))
 (.node 2 (.node 1 (.leaf 5691444360000000001724450221011110507043056914443600656000064445002010111101081440569144436000330000429952519101111020758205691444360000000003831450221011115490686046234443600024000026564502210111100162670462344436000220000233045022101111564912804623444360001600000336450221011115224793046234443600025000013594502210111103192330462344436000000000502045022101111740929605800444360000000005945450221011110458841058004443600015000044084502210111158379480548844436000150000457045022101111005701705488444360077900006138450221011110033078054884443600486000063824502210111155555240548844436000150000575745022101111735116807084444360000007155271450221011115807543)
 (.leaf 7084444360000307154876450221011115741490054884443600013000034724502210111151916540548844436000000000184445022101111565661905323444360000000001924450221011110276651050874443600000000029734502210111102499630508744436000150000488345022101111014340707910444360071400006258450221011117263704079104443600698000066894502210111155777300791044436008030000563145022101111049954806190444360006900004262450220511115761005061904443600000000041264502205111099740500619044436000080000475945022051111548186006190444360077900005488410241201115859164061904443600849023383553902512011103647540619044436008461437809039025120111746710606190444360085318038319390251201110046193))
 (.node 1 (.leaf 5125444360000000008272450220501110122891051254443600027000049594502205011157293340512544436000060000472045022050111042963105125444360000000004662450220501115983881051254443601050071586654502214011157730190512544436009470550857345022140111063745700000444360091539748710450221401117689311000004443600877071588364502214011160441760000044436009830986564845022050111598032905125444360000000005884475210501110100866000004443600000000059445501805011175332640545844436000000000528355018050111569438505975444360000000005257550180501117524619068604443600000000036805002005011159182160701344436000000000426947521010111518764307678444360000000004827450220101119396015)
 (.leaf 8419444360000000007731450220501115970798088244443600000023378384502214011167122670724044436000000000395245022140111521143205579444360093400008317450220101115720046046784443600934000071524752101011163839140465244436009480000383650020010111800049604457444360089600002318500200101115835345040724443600911346879055251905011154833300243044436009820000218750020010111078143500000444360097300002737500200101117453196000004443600836041057884502210111162309370492644436009732092622150020010111078310904926444360098205473893500200101117799902000004443600930000052625002001111176729530000053036006340000412152519010111055453000000530360070400003310500200101117634144)))))
 (.node 8 (.node 4 (.node 2 (.node 1 (.leaf 10592444360080700005238475211001110889791105924443600824000086654502210111158395081059200036008320000857345022101111057630810592172360082400008438450221001115929640105924403600828000088994502212011162558161059262636007770000889847521120111126841610592262360079000968929500201201118689447068144443600832284890035251912011162000680843944436009530000650655018140111049680708439444360079900006424475210501110489226038054443600917000063955002005011161865250380544436008460547630150020050111128771603805444360079000006202500200501118052544041614443600782054762645251905011162694200398144436007990000611350020050111784446203981444360079900005952475210501117941265)
 (.leaf 3981444360078200006394525190501117681162039814443600719000066835751705011095588750398144436006890000670262515050111472501103981444360068900005389625150501118107692039814443600689000057176251505011181806760000044436006890000601362515050111850799000000444360068900005933625150501118165705000004443600689000060766251505011162305230000044436006890000564062515050111610829605125444360068900005863625150501110947296056974443600689000073527001205011178969240569744436006890000570170012050111794977800941444360068900006143700120501116293610009414443600689000054316751305011105390420644644436006890000564062515050111661040405952444360068900005140625150501118060959))
 (.node 1 (.leaf 5952444360055800004884650140501116123367052184443600157000042447001205011109477350613244436006560232694155018050111595083804716444360077900006621430230501115822503035544443600844009659403502705011173177330355444436007990000593441024050111568956705744444360069800004847475210501115885854072994443600664000075475002005011159290460893944436006890000776652519140111568496310592444360066300007574450221601115146551105924443600663000075744502216011151465510635344436006820000688445022050111574230108385444360068900005930450220701115923823075504443600689000057884502207011160629970729544436006890000578845022070111546216807083444360068900005477450220701115920357)
 (.leaf 6786444360068900005564450220701115594227063154443600689000054084502207011155969910736944436006890000517345022070111595607906312444360068900004984450220801115279869058624443600689000051734502205011160643790565244436006892326490445022050111514465908935444360085808426205475211201115446784085174443600858109159524752114011159914870874344436008250000593045022120111578893108625444360083705477171410241201110813135105920773600686023284384502212011158017541059207736007790000790137026120111086448810592077360077900007559350271201117683198105924443600782009678093702612011157669771059244436008071219804941024140111086629810592444360083509785958450220501117258670)))
 (.node 2 (.node 1 (.leaf 10592444360083524388528450221201110921639105924073600766121978654752114011157600941059244436006050547793445022050111777828710592444360054012197357450220501116000005105924193600400023269344502205011163690461059244436004230000508845022050111771464310592444360043100004457475210501110866312105924443600442000042694752105011160769191059244436004420000442147521050111584736110592444360063412195196475210501117719563105920693600777070786984302312011105475621059232836008243114826241024120111771906410592328360082426218458390251201115748474105923283600742366689685002012011157678471059232836006823559892557517120111605078410592444360083226217135450221401110732995)
 (.leaf 4176444360063400004687600160501110442391105924443600627000063226001605011103624001059244436007092216808043023120111783894100000444360070916216404430231201117631142000004443600803367767374502212011155673451059218236008352943654245022120111755986910592182360077736666641450221201116304106087254443600704399680984502212011099590731059200036007043001831745022120111029890708756444360070413175477450221201115514714089734443600719346871164502212111158976761059200036007423098586445022120111024967510592000360074236145864450221201115567913105920003600714372359304502212011103037791059200036007043349614345022120111031347010592000360070438406010450221201117440703))
 (.node 1 (.leaf 8309444360070441266997450221201115979766097294443600799142584884502212011104288081059200036008073844843845022120111045348410592000360070900008710450221011110186821105924443600623131785913702610111106850441029744436006170096877839025101111777863609478444360063909788883430231011110930978089424443600617000089764502210111185178901059244436005670842900957517101111631092910592444360057600009021600161011118238049099074443600601000087085251910111105344950990744436005280000885247521101111039578709907444360045000008763450221011115823495099074443600423000087814502210111177078351010644436005920000885345022101111087916109558444360050500008763450221011110709665)
 (.leaf 9440444360040000008872450221011118002442094404443600601000089444502210111177858990944044436007710000898850020101111772069609440444360065600008942525191011115978305098404443600613023259304502210111105599880984044436006230547568943023101111055589209148444360081900005646350271011111173453091484443600799000057433902510111160086290914844436008030000687139025101111029791209148444360083500006997450221011117573635080594443600835009663333502710111175878640805944436007930000671335027101111055681708059444360082500005894430231011117503228080594443600714000057234102410111104650800805944436007990000709937026101111571991208059444360074200005524390251011110435000))))
 (.node 4 (.node 2 (.node 1 (.leaf 8059444360074200005679390251011115780833080594443600669000057844102410111101975740805944436006210000540845022101111574915208059444360000000005173450221011117680447056114443600000000062984502210111176747960561144436000100000668945022101111008333900000580360001300002401450221011110297123000005803600008000019714502210111160331230569144436000000000104745022101111044432505691444360038400963656450221011110130159056914443600505000074684502210111101660380569144436000000000312745022101110999245805691444360000000001850450221011115455341056914443600000000016784502210111172948310462344436000000000167845022101111715778804623444360002000001592450221011117537777)
 (.leaf 4623444360013400000883450221011117593152046234443600017000005184502210111174481690548844436008350000659845022101111549580805323444360000700005854450221011110538701053234443600004041057574502210111157939700532344436000720000625845022101111755299205323444360059200005041450221011117199506053234443600790000048104502210111153813120791044436008350000551245022101111570000207910444360083500005715450221011115701510079104443600835000059304502210111109649770791044436008240000880343023101111751081407910444360074200008647475211011118154599051254443600014000044914502214111102308930512544436000000000412645022051111591317206190444360000000004179450220511110217841))
 (.node 1 (.leaf 6190444360083702328458390251201110466427061904443600839097882233902512011099756770512544436008480000835539025120111038479006190444360082800005418410240501117501108051254443600022000048444502205011177379600512544436000000000420745022050111040315205125444360086200008695390251201110264402051254443600865000087093902512011178285350512544436000000000644052519050111025652205458444360000000003836500200501110303547079404443600000097873034502205011159043050845044436000550000831745022050111575957505879444360093400008062500200101117963823048704443600682083651964752101011109743550401144436009820701315450020010111112413210592444360098200002737500200101110511599)
 (.leaf 444360070909695864450221011110378875000004443600836070162074502210111104989851059244436007901308593045022120111105915204926444360098200003289500200101110435006000004443600643000041215251901011107572060169144436006820000412152519011111747181210592444360066400003902525191001110570205105924443600842000058654502210011161700371059232036008360000831745022100111765369110592320360084408368020450221001110822338105923203600828000084384502210111100598081059244436008280000861445022101111729689510592444360082400008528450221011115609229105920003600819000084384502210011106160431059217236008320000871045022100111070155510592172360081900008898475211201111272096)))
 (.node 2 (.node 1 (.leaf 10592000360077100008942525191201111120188105922623600777000088984752112011182688911059226236008280095773755018140111120417304975444360068200006325550180501111700032039814443600870000076864752105011116548250398144436008070231614345022050111865786803981444360068915116394525190501114577944039814443600689000053206251505011112787881059244436006890000538962515050111616069510592444360068900005640625150501118462595057974443600689000057856251505011114529421059244436006890000711262515050111838831704242444360068900006791625150501118367673042424443600689000067916251505011163032670512544436006890000603265014050111775640604965444360068900006117675130501116127678)
 (.leaf 5697444360068900005701700120501110813929105924443600689000055746501405011182011421059244436006890000571762515050111600981310592444360068900005785625150501110655480064464443600621000045446501405011178851080644644436003070000407567513050111771351705219444360047700004740675130501115882954059384443600799000051184102405011108407920355444436006890000525145022050111632577805995444360068900004744450220501117997221064504443600689000049844502205011110029510962444436006890000781952519140111583462010592444360066300007574450221601115146551105924443600689000075744502216011151465510624544436006510000578245022050111611092405583444360064900004744450220501116039511))
 (.node 1 (.leaf 9361444360068900006270450221001116583469093294443600689000063994502210011151614280705044436006890000593045022100111572455707713444360068900005173450220701115540882061724443600689000049844502208011151574930618444436006890000540845022100111644482705233444360068900005408450220801116238931053424443600689000050784502205011154554550905944436006160000595247521140111584450210592444360063407018192410241201110770741105920773600835083680984502212011160607841059207736008420231527647521120111791704310592444360079300007542390251201110619563105924443600771360571524752114011104598220512544436004500701558547521140111817495910592407360035700003356475211001118005295)
 (.leaf 10592419360056700002475550181001110215068105923673600777000024905251905011103132461059206936008450000715247521050111037879310592069360064304067809370261201116158610105920003600639151183254102412011158249221059200036008372836862647521120111106229810592328360085331778729430231201110998883105921803600835296585143702612011160162091059218036008323201872737026120111557234610592328360063407017934450221401116220695105924443600704054359015002014011105415411059244436007930406370655018050111051657310592182360079925595958450221201110271846088184443600709193867374502212011157894460852444436007092207817445022120111703374308725444360077123198383450221211115097238))))))
 (.node 16 (.node 8 (.node 4 (.node 2 (.node 1 (.leaf 9627444360076635285930450221201110394540090154443600719302059304502212011155439400853544436008243020572445022120111570663908516444360084826075930450221201115797084097294443600719000086654502210111103452501059244436006230231870939025101111056312809478444360061300009002500201011111345981099074443600549000090025751710111113474100990744436005580000876341024101111066754510455444360051700008597390251011110677660104554443600442000087634502210111176636671010644436005050000868341024101111092549210106444360047700008726475211011111008159098464443600621000087104502210111107513940984644436005400406886557517101111054724409846444360059200008976550181011118197504)
 (.leaf 9846444360054000008992625151011116294147098464443600592000089516251510111179467440944044436007770000893762515101111641222509440444360068600008602370261011117940006091484443600656000060714502210111107750150914844436006340000601045022101111577747308059444360062300005724450221011110958690080594443600442000061734502210111174816380805944436005670000601045022101111578251308059444360062700006075430231011115408276080594443600357000072354502210111102326840805944436005170000723545022101111578092408059444360043100007417450221011110330204081654443600779000058584102410111157458630816544436005400543556445022101111572283608165444360040023194827450221011115612226))
 (.node 1 (.leaf 8250444360019825594827450221001115956746056114443600104108242574502210011174843810825044436000170000544045022101111561475605611444360001100004851450221011115511171056114443600257000065424502210111100683550561144436000220543588145022101111578115705611444360000700003557450221011117476979000005803600003000043774502210111160324140000058036000480000608245022101111590620807224444360043100006579410241011110465731000005803600013000021744502210111107361280722444436000000000195245022101111763978907224444360000000001234450221011115814841056914443600621000054374502210111158870380799344436006130000686347521101111087559905691444360066400006470525191011117241868)
 (.leaf 5691444360014400004739450221011110185758056914443600004000049154502210111100009410720744436000260000415045022101111541639307207444360001900003827450221011117436320046234443600000000020514502210111158348620580044436000040000077445022100111748826505800444360001700001502450221001110326672058004443600016000046764502210111176845940548844436004420000600845022101111569832205488444360044200006495450221011110011398074984443600349000064954502210111177608430752444436006050000684645022101111763744807524444360083500006909450221011116161383079104443600835000052154502210111155926290781144436008350000521545022101111553293307910444360083500005300450221011115762421)))
 (.node 2 (.node 1 (.leaf 7910444360083200005402450221011115743059079104443600835000054714502210111158132730791044436008240000571545022101111070478407910444360083500005788450221011110751750079104443600803000061075751710111106895320791044436000020000440845022141111053417506190444360000000004126450220511110591627061904443600020009548914302312111105914480619044436008350231835539025120111054676305125444360083910828408390251201110461388051254443600846096985013902512011177884820512544436002150000497043023050111778818805125444360000800004228450220501110883954051254443600000000042574502205011160751670512544436003571860561443023120111091344105125444360087200008679390251201116298409)
 (.leaf 5125444360010005437496450220501110282742051254443600033000077314502205011159508450512544436001160000605845022050111583868805125444360000000005459475210501117847503051254443600000000047775251905011173780880512544436000000000334352519050111581272605458444360000000004455550180501110358098055184443600256000038365002005011158064820793744436000001082730345022050111609311006395444360057616057838450220501116359827076794443600000000045774502210011140017690587444436006271846849947521050111135635104870444360071900944123475210501117799606045674443600858000025234752101011175920831059244436009820000273750020010111057371110592444360083704035930450221011117771728))
 (.node 1 (.leaf 2073444360084809605102475211201115954397020734443600982000033105002001011109818280000044436009820000342250020010111578862710592444360068611955015500201001117811539105924443600639040352055251910011104468811059232036007420000570850020100111758988910592320360083504038448475211001115738626105920003600839000077314502210011157137871059232036008280000857345022100111087615010592626360080300008665450221011117499311105926263600803000086654502210111156966721059200036008240000876345022101111745641410592626360080300008488450221011110338027105920003600828009485734502210011177535421059200036008250094850139025100111110674310592000360077100008895525191201110765161)
 (.leaf 10592000360077100948944450221201116210543105922623600842022977145251912011181529691059226236008190960639155018140111606928710592444360077705396480550181401118346285105924443600634000065305751714011161018681059244436006430000639452519050111640209303981444360077100006325550180501111200340039814443600714000066125501804011144824800398144436007660000585552519050111552382303981444360068902297594550180501117292833039814443600689009462615501805011173280800398144436006890539680462515050111678118403981444360068900006748625150501117160434039814443600888000067476501405011172056780398144436008720000672265014050111087404303981444360077730475377600160501110372911))))
 (.node 4 (.node 2 (.node 1 (.leaf 10592444360069800005140625150501116286323105924443600689000052296251505011185018221059244436006890000532062515050111642095005797444360077900005588575170501116696438042424443600689000057856251505011178565860512544436006890000565965014050111144903304965444360068900005920700120501116320605105924443600689000058487001205011111711701059244436006890000514062515050111616570510592444360068900005466625150501110803166062164443600689000054984752105011108194770471644436006890000655957517050111596745403554444360068900005377600160501110715298064504443600689000050784502205011110030780732544436006430000760147521050111102961609267444360068900007550450221401115368287)
 (.leaf 9986444360068900007718450221401114250683092064443600653000076265251914011156405610627144436006890000681345022050111625374905453444360068900004744450220501116057906053644443600689000046624502205011160211160927644436006890000623445022100111730938209002444360068900006270450221001115371711086184443600689000060104502210011145593810924844436006890000630445022100111621341908352444360068900006071450221001115841802074614443600689000061434502210011158464940860944436006890000648445022050111649445610592444360083702298846410241201114441035096764443600689053963024752112011159192961004744436006890094620547521120111589454409078444360079002295811475211201117760745))
 (.node 1 (.leaf 10592444360079905396010450221201116092405105920003600828140387104502212011108052181059244436008191689860741024120111767743710592444360085319275393525191401111120752105924443600585000077864102414011182616111059244436005170229736941024050111930215110592236360066420697838450221401111192434105922363600226000019434752105011105979001059244436000210000187850020100111740077905125444360014400001910475211001110124579105924443600004000016705251910011176511451059228236003570000173957517100111030084210592282360060500001701550181001110529936105924443600835000019015002005011103671961059200036007790000805637026120111052196010592180360077916899010550181201111163125)
 (.leaf 10592180360066900947590430231401111323465105921803600627000038645501814011181973811059244436006560539718152519140111081523306174444360087906964269475210501110431471105924443600682150538525251905011157740011059244436006390403749645022140111039321808533444360084231206426450221201117147934085244443600779276371744502212111100519130982944436007793596887245022121111589864810136444360077921918872450221211115696055098734443600779310163644502212111164962440927244436007793346620745022121111535175110493444360084808328944450221211115317764105894443600848230789574502212011156405370972944436008030832887245022120111038110809729444360079300008781450221211117797536)))
 (.node 2 (.node 1 (.leaf 9729444360080708328801450221001117335125097294443600771009486144502210111101820841059244436006390000876443023101111084082309478444360062300009040625151011111725771104554443600528000088825002010111163803831010644436004860000866841024101111108186009846444360047700008626475211011116179176098464443600585000084884502210111158073110984644436006210000885150020101111540082709846444360063900008895525191011115703778098464443600617000086945002010111120165880944044436006230000883350020101111607769810191444360063900008523370261011111100973104064443600601000085853902510111102618940914844436005050000874843023101111595217009148444360045000008884475211011111007044)
 (.leaf 9148444360048600007495450221011110979650080594443600558000060364302310111107931370805944436006390000895162515101111053444408250444360036605395724450221011117048404082504443600467000083834502210111151470200825044436000080000595845022101111017746508877444360000000004974450221011117662344088774443600016000057824502210111099756960887744436000600000642645022101111498566007224444360025700008174450221011110491724072244443600423000087104502210111111480200722444436005760000572445022101111613823407224444360010400005408450221011118084767072244443600005009440024502210111158907630722444436000010000253845022101111770850805691444360000000001855450221011115706096))
 (.node 1 (.leaf 4489444360000000001834450221011110397254056914443600567000042574502210111173722090799344436006050000536945022101111018748007138444360054900004883450221011115324955071384443600558000041264502210111171370220569144436002830000575745022101111063566907207444360059200005757450221011117407018072074443600807000061384502210111103096770720744436001860000456745022101111084140606702444360000000002905450221011115499005058004443600000000025654502210111104698920580044436000000000544045022101111743425008417444360000000006041450221011115690953081584443600000000063824502210111158471090548844436001860000659845022101111558761008025444360017000006767450221011115975825)
 (.leaf 7637444360080300006689450221011116034368073724443600832000068464502210111176329150749844436008250000700945022101111111911507805444360083200005870450221011116177274053234443600832000056614502210111105143170711544436008350000536945022101111062190907811444360082800005643450221011115994489078114443600819000057884502210111160140840791044436008280000564845022101111067592007910444360082800006001525191011115947393079104443600832000057244502210111179171460791044436001700000498445022120111086282106190444360000000004311450221211110335240061904443600777119586463902512111110072520512544436007930403853839025121111078961305125444360000800003952450220501110627042)))))
 (.node 8 (.node 4 (.node 2 (.node 1 (.leaf 5125444360001900003811450220501117735590051254443600517000056144302312011180538450512544436006231595863543023120111794009105125444360083900008728410241201117794596051254443600000000040595251905011109729790667744436000000000404647521050111582174705220444360083708327303450220501116098997051834443600704000074964502205011108625210659844436005850000723545022050111604901407246444360000000003952450221001114001769089014443600703000088724502205011161688640456744436009400000315450020010111063302504567444360098200004139500200101117924413105924443600904000049234752110011108293381059244436008322178533845022120111093846910592444360082406873811450220101117751724)
 (.leaf 1691444360068900004043525190111115693858016914443600634039834335251901011157280690169144436007932241457547521100111587173504722444360070402283813500200111110600087105924443600793000077544752110011109950241059200036007790000742850020100111088228110592000360079900008528450221001110403410105920003600807000085734502210011156306471059200036008250228866545022100111080787810592000360083500938729430231001117869659105920003600835022888364502210011111773931059200036007710228887245022120111075229210592000360080702288931450221201116536873105924443600777068765786251514011112153431059244436006820537653450020140111636434005313444360070400006332450221401116364360))
 (.node 1 (.leaf 5313444360071400006302475211401116252628053134443600689000062576251505011119168150398144436007040000629457517050111673270408170444360068916786323575170501118452382039814443600689009377346001605011159859560398144436007040000756360016050111627772006190444360068906877433550180501111787778105924443600689053762995501805011186624191059244436008190000781162515050111642993810592444360080700007785625150501116126676105924443600872000079716501405011158401350398144436009580000786465014050111087941010592444360071900007789575170501117893048042424443600709053763896001605011107258060496544436006891395564062515050111125327904965444360078200005504675130501116260159)
 (.leaf 10592444360084600005676675130501111080538105924443600848000051117001205011160533251059244436007930000509067513050111623433906446444360079903985024600160501119993993064464443600689000071344752114011114309450644644436006890000507845022140111822927004716444360068900007151500200501117921895047164443600689000069055751705011160390640512544436006890000561660016050111094672803554444360068900007121550180501116030916068484443600682000068844502205011162126890684844436006340000760245022050111595309206848444360063400007495450220501111342196068514443600669275174174502205011159229920785744436006890000768452519050111575413509136444360068900937626525191401115610364)))
 (.node 2 (.node 1 (.leaf 8333444360068902287354525191401116282177086814443600689000074905251914011157532870893444436006890000756952519140111592727806849444360055600006652450220501116136127058104443600656000062984502205011159420640506844436006890000482745022050111568884706476444360068921206939450220501115663795072424443600689107072974502205011160325780890644436006550000607145022100111606091810195444360078200006271430231201115119518100474443600779039884583902512011111565781001244436008240000871243023120111621701110592000360084800005564450221201117848611105924443600858000054294752112011106593841059244436008480000826347521140111618530010592444360000300001382525191001110267611)
 (.leaf 444360029306871754575171001117655221000004443600549022823485751705011158288901059244436006270000206960016100111581334310592444360013400001771550181001117572429105924443600060009317225501810011156252821059244436001830000169752519100111551109108683444360077900003374525190501115743565083624443600824039838714502205011159584560685644436008240000584447521050111072526010592248360080700003818450220501111038895105920003600627039886264752112011107566171059218036007711835900257517120111132258410592180360062302283977500201401111266409061744443600623000056365251914011110239990617444436007190537457243023140111093091010592444360062313956587525190501110666719))
 (.node 1 (.leaf 444360083934728020450221211114853574085334443600825302984884502212011151389230972744436007793719760245022121111538619810560444360068200008967525191011114344366104634443600714343089775251912111160305391048644436007713430894447521121111579061310461444360077929388916450221211115781408094834443600779275188854502212111153580140997244436007790000881845022121111512780810574444360084805378957450221211115592065098814443600835302988014502212011105272120972944436007791291887245022120111572374709729444360077116788801450221001112372307105924443600742240784384502210011105612140841544436006052060888343023101111840141010455444360055800008650410241011111065546)
 (.leaf 10592444360058500008633390251011116048751105924443600477000089164502210111160324141059244436004670000888447521101111860803309846444360061700008893575171011115853010098464443600423000088994502210111106984670423944436005850687895555018101111610240404239444360054905378567390251011116085147042394443600450000084373502710111162183670423944436002320000849837026101111817339310191444360065600008668410241011116124257101914443600576000088534502210111178986101040644436005050000874843023101111097331109148444360051700008783430231011111316117091484443600341000075744502210111163246130914844436004130000740143023101111081335208059444360042300936054430231011111116403))))
 (.node 4 (.node 2 (.node 1 (.leaf 8059444360080300009001600161011116100816081654443600819000089516251510011177818150825044436003410000688445022101111048348108877444360006900005662450221011110508720088774443600273000087264752116111159643770887744436002320000866545022101111116280708428444360010400003871450221011115896077084284443600104000037234502210111176490350842844436000280000333345022101111753139004489444360010000003304450221011115710063071384443600709000040384502210111105645730713844436006430000455845022101111037524505691444360052800004844450221011115476314072074443600349000067364502210111102066630720744436006210000691545022101111736355207207444360068600006548450221011110607702)
 (.leaf 7207444360079000004883450221011115596942072074443600793000048834502210111154313340670244436001130000359545022101111034184507861444360000400003550450221011117381976094624443600000000054844502210111105123880815844436002830000676745022101111603012707372444360083500006909450221011111009301083124443600832000055024502210111158948830780544436008280000550245022101111101231107805444360077900005402450221011115902433088134443600835000054374502210111158779090881344436008350000570745022101111585096508813444360083500005670450221011116190108088134443600835000057154502210111182058790881344436008350000574945022101111595197807815444360083500005648450221011115333821))
 (.node 1 (.leaf 7815444360083500005788450221011115562427079104443600835000057884502210111108043230791044436008350000578845022101111778404007910444360083700005724450221011115898992079104443600837000057884502210111158167030770144436008280000593045022101111772152107701444360082800005724450221011115907059077014443600832000054774502210111177032120784044436008360000540845022100111581711907840444360021500005173450221001115849801061904443600004000047444502210011102494850619044436008421395564845022100111573604406190444360080700008458390251011110492832061904443600777068785463702610111109538680512544436007790537864639025121111099807505125444360083900008619390251201111056643)
 (.leaf 5125444360082805378487410241201115812057051254443600793000083884102412011157147090512544436001160000507845022050111580651105125444360011600004904450220501115842918051254443600605022851454302312011106216580512544436001360000490445022050111779661305125444360001000004744450221201110591171051254443600664000084874102412011160537700512544436005490228848741024140111120751805125444360063903988488450221401115827160051254443600022000059584502205011106496830512544436000000000584447521050111770245905125444360000000005766525190501117543370051254443600000000038225251905011155107050672644436000000000383650020050111052582508005444360000000004984450220501115160707)))
 (.node 2 (.node 1 (.leaf 6081444360063400007613450220501116100503062434443600623000077314502205011161467280754544436001130000474445022140111572735607386444360000000004257450221001114247079049834443600846053376134502205011115573841059244436008241061395245022120111083734102073444360097700003893500200101115899265020734443600982000041065002001011157179570207344436009820000263850020010111588000300000444360097700003437500200111115912059047224443600888000041245251901111105734210879244436007660533699650020100111085153610592000360080700008174450221011115683906105920003600799000080204502210011176782061059200036008250000838345022101111580424410592000360079900928528450221001117482157)
 (.leaf 10592000360082800008488450221001110897967105920003600819000085734502210011108170701059200036008350092887245022100111113671610592000360082500008899450221001111844908105920003600799022688344752112011114757111059226236008360394645243023120111109505910592289360077108186304450221201116054297105924443600698053364574752112011111935990531344436006860226629955018140111168026208170444360068610617490525190401115994074081704443600682000061135002004011163280540817044436006860818641955018050111205537709604444360068905336555650140501111307957061904443600689053363235751705011122008961059244436008240000650845022050111560534210592444360082402267687450220501115874144))
 (.node 1 (.leaf 10592444360077700006329475210501115722826105924443600689000053896251505011113155850496544436006890000514062515050111106039510592444360084800005381430230501112209414105922753600689000053775002014011112205491059227536006890000693945022050111779389206446444360068900006834475210501115857969028404443600689053365595751705011113316880512544436006890000658060016050111097561505125444360068902267569525190501117619689060674443600689000060894752105011177867470674444436006890394729745022050111818419606848444360066400926737450220501117708845060624443600682000050784502205011112879740714944436006820533714743023050111609266907008444360066400007174450220501115756757)
 (.leaf 6808444360066900005788450220501116248260087644443600664148173104752114011159859860626544436006820000540845022050111612955206908444360063903947057450220501115975454061644443600656022668844502205011165886660552044436006640000705745022050111596471506922444360068900005930450220501116186375093834443600689000066304502205011173937020767244436005650000555147521140111573616910592000360085802265029500201401111251385105920003600858009252495501814011179121011059244436008670092500257517140111785364910592444360084600004476550180501118008499105922383600183000032375002010011111903210000044436005490394158150020100111053742800000444360082408183722500200501117757788)))))))
 (.node 32 (.node 16 (.node 8 (.node 4 (.node 2 (.node 1 (.leaf 10592444360078223347210430230501115979934061664443600771284074804302305011159573971059224836007190000712541024050111827750509604444360077705337050430230501112194413096044443600790022686144502214011164054131059211536007822737898852519120111140556510592115360084234798814410241201117982853061744443600656081868415251914011109749790000044436006231385704257517050111785999410592444360064300006203500200501111364079087324443600824329187264752112111157816321042244436007790937893145022121111511615309702444360077913858781450221011115683860097674443600742053387814502212111156931931019744436007772231894445022121111067464309196444360077909378967450221211115094316)
 (.leaf 9908444360083928928801450221201117755402099084443600844356588184502212011106848980972944436008462658881845022120111101653609729444360070910618801450221201110688840097734443600742009285734502210111112837191059244436007930000846431029101111062981310592444360077100008837430231011110908659104554443600634000083923302810111183454591045544436005490000783729030101111788947510455444360058500008073290301011117235320104554443600627000082463102910111193432291059244436006340000863339025101111807824910592444360064300008814410241011111417218098464443601085000084243102910111180643070423944436004770000897850020101111119496910406444360065600008984625151011111494202))
 (.node 1 (.leaf 10406444360057600008646390251011111164344091484443600293000088994502210111112121580914844436002320000893145022101111592979209148444360023200008885450221011116363024091484443600322000074014302310111112541530914844436003410000730541024101111087044908059444360048600005761370261011110887076080594443600771000090117001210111185078880805944436007710000902870012101111799933108059444360070900009028700121011118445185080594443600576000076555501810111180347110816544436001041903362645022101111061633408250444360002502267347450221011114718735082504443600000000047074502210111106750810825044436001480000597745022101111529295106455444360000402266542450221011110964682)
 (.leaf 8877444360022106806884450221611111015264088774443600293000068134502216111109499900842844436002730000540845022161111083509508428444360034100007381450221611110414892084284443600060000039734502210111176513050757944436000100000370245022101111569650007138444360019800004231450221611115452020071384443600273000041104502210111103458040713844436000080000431745022101111732842807669444360002400004237450221611110202007072074443600423000049124502216111105456780786144436008350000631845022101111560676008831444360082400006810450221011117895764088314443600771000069654502210111159762490763744436007770000695745022101111081883608312444360069803946988450221011110996576)))
 (.node 2 (.node 1 (.leaf 8715444360082400005682450221011116057739078054443600528000058644502210111111635240881344436008070000861445022101111598781908813444360070900008528450221011117722883086954443600807000084884502210111109017520869544436008240000607145022101111129754708086444360083500005864450221011111267870079104443600790000055494502210111161963420791044436008240000540745022101111576375807910444360083500005408450221011117662875080184443600837000056484502210111178395870801844436008350000540845022101111563291307840444360083600005648450221011117685061078404443600825000056144302310111105983950619044436000640000482745022100111039061006190444360083614818711410241011111683441)
 (.leaf 6190444360079000008605390251011116117861061904443600803068085973902512111162879930512544436002570000465143023120111067386705125444360024700007816430231201111658819051254443600148148181744502212011111831030512544436000000000396452519050111062007807425444360000000003328500200501117453655063014443600000000034504752105011156801800790144436000000000490445022050111552790606188444360056100006826450220501115859857077994443600000000045774502210011150150200866544436000000000525145022100111464120206543444360070500007934450220501116679570047274443600934022571354502205011160132100512544436007991169824145022120111158224505125444360071400004269475210101111384308))
 (.node 1 (.leaf 4567444360093200003540550180101117978503061904443600837000049844502210111110389251059244436008320225482745022101111772184510592444360082500004662450221001115827655055254443600824022546624502210011175183980355444436008280932457745022010111103261003554444360082502255251450221001117553685047224443600888000059015002010111155955850472244436007820000593650020100111572854610592444360063900002824525190101115469166087924443600766000025404752110011174964210879244436007820000293647521100111775736808792444360079003907639475211001110713663105923003600832000078384502210011176254241059200036007990000802045022100111543693910592000360077700008665450221001110850876)
 (.leaf 10592000360082800008596430231001110922262105920003600835022588724502210011115008851059200036008350225893145022120111207615810592000360082502258836450221201111860719105920003600771022588534502212011159751971059228936007710390883645022120111193595110592289360080305298899450221201116439918105924443600766066988724502212011115110451059240636006820000741745022140111114713508170444360068200006270450221401111645008096044443600682052962074502204011180039960960444436006860811632652519050111820611707104444360068900006039575170501116452377105924443600689000064486251505011117662751059244436006890000672355018140111612530010592444360068902257737550181401115942363))))
 (.node 4 (.node 2 (.node 1 (.leaf 10592444360068909327139575171401117886185105924443600689039076506001605011161064731059244436006890390786662515140111147208310592444360082400006583450220501110322505105924443600689000051406251505011113342270496544436006890000504262515050111145637710592444360082400007206390251401116276100105924443600825165776044302314011185540400644644436007711470715150020140111665040509604444360068900006254525190501117480144049054443600689000059655751705011162123650284044436006890000620660016050111112674105125444360068906696958575170501111077461051254443600689000072136001605011110138410606744436006890000629457517050111106714205996444360068900005251450220501115996201)
 (.leaf 5700444360068900004904450220501115732902060854443600689000054645251905011162574210607744436006820000537750020050111566568706898444360064305297057450220501111156243065474443600686000070754752105011114991040675144436006890000715150020050111584233406694444360061400006582450220501116145522072274443600859000066675751710011146716790772244436008540000695857517100111396889610591444360062703909025650141401115778138093054443600643039085734502212011159168460930544436007821053808043023140111076827503554444360083903905054430231401118021239035544443600879000042935251914011111326561059244436008530091480152519050111144482010592238360006900003404525191001110862763))
 (.node 1 (.leaf 10592238360014400001753500201001117901265000004443600682000018315501810011111656631059244436008240000884039025120111571055408713444360066900007500370261401116159260062374443600601105366773902505011156888250574544436006640000667043023050111607118209604444360071400007521475210401112090894105921153600656196478384502214011117129451059211536006230669415252519140111787742210592444360062700002767575170401115944356105924443600634181340065501804011156752201059244436006270000584652519140111766696810592444360068600006818500201401117356665105924443600656105336805002014011154736001059200036006232218620350020050111795672910592000360065600006797475211401116077060)
 (.leaf 10082444360059600008781450221011115677567089714443600766022584884502210111156712730956444436007041377871045022121111120879809544444360083218928781450221201110911188090674443600777203688364502212111153762770947744436007660000871045022121111576681008916444360071920368488450221211115195171098314443600704203688014502212111160885281049944436007423764885443023120111837662310499444360071938578803430231201118102425097294443600832342783834502212011155909700977344436008363040843845022120111053975409773444360077132448528450221211117480896097734443600779291385284502212111175216350977344436007792558852845022101111108592510592444360071900008799410241011111140436)))
 (.node 2 (.node 1 (.leaf 10592444360071400008640370261011116021847098464443600714000086253702610111111332400984644436003220225834133028161111119422204239444360035700008685370261011111186326091484443600283000088364502210111112531380914844436002320000885345022101111611658509148444360023200007602450221011118003933091484443600273000075744502210111181180040914844436002470000741745022101111827598209148444360024700007523450221011117847072091484443600257000074954502210111177711200914844436004310000741745022101111603909508059444360030700007495450221011110878624080594443600634000090196501410111110300600805944436003661169469045022100111085510908059444360003318922337450221001117693256)
 (.leaf 8059444360001811691894450221001117672788080594443600019000019834502210011177480230645544436000720000342145022101111515268708250444360021500005662450221011115719851064554443600055000064264502210111156081950645544436000640000605845022101111572039706455444360010400006426450221011115505239088774443600232000088184502216111117704210887744436002320000717445022161111155219010359444360023200007235450221611117896770101014443600232000071164502216111157779890958744436002320000705745022161111588300009587444360006400005838450221611115504714084284443600032000058234502216111177171600842844436001640000693945022161111585641108428444360013600006737450221611117718755))
 (.node 1 (.leaf 8428444360023200008240450221611110892733075794443600221000047594502216111107951950808744436002930000487045022161111795717608087444360023200004996450221611115738526080874443600176000043474502210111176721120808744436000280000364145022101111744237306715444360004800004570450221011110904904072074443600176000046384502216111173281870816444436002570000472045022161111059325308164444360034100005175500201611110733387088314443600656000087795501810111112502020946244436006050000693745022101111584445609003444360038400008405450221011111216554083124443600442000071744502210111113600370919844436003070000729745022101111130177808813444360042300008801450221011110870073)
 (.leaf 8813444360054000008573450221011110663028086954443600567000085284502210111177068270899144436008250000864150020101111169957808086444360059200005814525191011118164188080184443600232000056704502210111109949160784044436000100000547745022101111768561806190444360000500004827450221011117392682061904443600055000047444502210111106731470619044436008370669878145022101111174280105125444360082500005281410241201117851082051254443600027000049044502204011158232120512544436000270000348945022050111146554105125444360032200004737430231201117758307051254443600000000052214502205011107562610512544436000000000681850020050111059169906533444360000000003515500200501110488283)))))
 (.node 8 (.node 4 (.node 2 (.node 1 (.leaf 9592444360003310538488450221401115591479080174443600215000056894302305011157799910739344436000000000425745022080111543373008056444360000000004744450221001114936050074324443600000000041094502210011152142040515844436009342025793445022050111697232804669444360093403866966450220101117507588051254443600919009027465251901011111819150619044436008880000372057517010111114988406190444360083500004577450221011111030344055254443600825000061444502201011108097540355444436008250000650945022010111094151310592444360087202244847475210101116035663000004443600982000031545002001011154273240000044436009820000253350020010111084028900000444360083500003147475211011111089763)
 (.leaf 444360079000005312550181011117526047047224443600835000070874752110011111033191059244436006340000461352519100111152305108792444360074200002730475211001110920293105923003600643000046955251910011110826601059200036005920000444250020100111084757810592000360063400008573450221001115270157105920003600505000086654502210011155816991059200036005280000861445022100111782015910592000360083600008548430231001110974493105920003600835000088534502210011178438901059200036008350090888545022100111175107410592000360082800908885450221201111350276105920003600771009087814502212011161001571059228936007710526888545022120111199468210592444360083706568967450221201112289238))
 (.node 1 (.leaf 10592406360068200006997450221401115884649081704443600669000061714752114011112480320960444436006822266626947521140111140388507104444360066400006301500201401118394204105924443600686226677155002014011121564721059244436006861046661250020140111120161010592444360068914627544575171401111713854105924443600689000075445751714011183821571059244436006890526756360016140111123612710592444360068900006702625151401112277090105924443600832009076584752114011112355521059244436007771462587337026140111575649110592444360071405265964575170501111353553105924443600709000063216001605011163094211059244436007090000635460016050111598086604965444360071900006321600160501117893074)
 (.leaf 10592444360070906566476600161401116130735105924443600790104665345002014011163427810644644436006980806550467513040111647977604148444360068900006959675130401111905462041484443600689000047696001604011116707401059227536006890656631757517040111589474102840444360068906566345600160501111422632056924443600689022471515002005011160930020514744436006890224571762515050111583500305408444360068906567563600160501111857083067424443600464000058394502205011160354110584944436006890090681555018050111571734606232444360068900005794550180501115807302066654443600689000058785501805011179712490610044436006890000563552519050111624816306154444360068934367047525190501115944004)))
 (.node 2 (.node 1 (.leaf 6514444360068900007166525190501115762508067494443600689000072925251905011159058860695444436006890000729252519050111497188806914444360063000007091500200501115818081077394443600854000069585751710011139688960770244436005890000746660016080111565636110592341360084500004817550181401111478772105924443600832000047155251905011183717431059223836007930000481855018050111823228610592238360077900005241390250501111106209105922383600134022432774502210011108555581059223836007660000261341024100111764302300000444360046705263574450221401111030071000004443600842180480804302312011158270170000044436008280000545643023120111581308110592444360079000007036390251201117500189)
 (.leaf 10592444360079009258355390251201115818222105924443600628000088403902512011158143760977844436006820806802833028140111611156907069444360055800007353390250501114044330079624443600517000070363902510011148886150641244436004670000721043023040111630701509604444360065600007428500201401111629924096044443600540000077815002014011186386701059244436006890806781643023120111769346110592444360077109258262410241201117650060105920003600643209086654502212011112378520893644436008192147880145022121111145788210113444360077900009012450220511116046732101694443600026038685284502210111145510920850644436005493025793445022121111545019206931444360027331727303450220401115316938))
 (.node 1 (.leaf 7732444360005500907303450220401114856600081674443600226009073924502210111152634811044044436005450000883645022121111542092009242444360002814628020450221211115549204077064443600136319874964502204011151281450943744436002832875793445022040111775938009773444360079008068020450221201110764123097734443600799310982414502212011109962581059244436007790090564931029101111590228010592444360068600005878350270711115988361105924443600766000084493102916111161666081059244436006340000888343023161111618493910592444360059200008912430231611111537715105924443600714000086403702610111160164931059244436007140000867037026161111104804209846444360071400006018370261611110436860)
 (.leaf 9846444360093502248464310291011111464755105920003600400000085913702610111112899390914844436004670000840435027101111593823309148444360023200007086390251011111190856080594443600232000060714502210111179925540805944436006340000884565014101111796735310592264360058527144984450221011115777189105922643600014000024064502210011110762190805944436000150000204045022100111524031906455444360001700002040450221001110939313068754443600025000064904502210111151890440887744436002570000895847521101111620470310359444360060500008907625151611110987115092254443600116000079344502216111105318590977244436001040000824145022161111056269609408444360015700006641450221611115859254))))
 (.node 4 (.node 2 (.node 1 (.leaf 9408444360010400004984450221611111247874092564443600015000042284502216111154437010808744436000280000517945022161111084711808087444360020700004949450221611110663963088484443600442000049564502216111107664680911944436002150000547745022161111571159509058444360040000005445450221611110894186090584443600057000049124502216111154937610905844436000570000739245022161111526995509865444360028300008098450221611115806258094624443600442000082414502216111111545571049044436003340000876345022161111146686710341444360028300008573450221611111264377102394443600232000085734502216111112682730957244436004230000572445022161111613121709945444360044200005724450221611111565318)
 (.leaf 9674444360045000008539475211011111239650092014443600486000060104502210111117141560798244436007420000572445022101111587918408259444360080300005724450221011116020430082594443600771000057884502210111178009380801844436008350000578845022101111113277707840444360080300008174450221011115967363078404443600072000067374502210111158439911059227136000030000586545022101111542744510592271360015700006167450221011110739468105922713600442038651734502210111179495021059227136008370000593045022101111858931506190444360077100008321330281211115825985061904443600771022484253302812111158920590619044436008280000859739025121111600116906190444360084803868567390251201115957434))
 (.node 1 (.leaf 5125444360021500004490430230501118000650051254443600015000046624502205011112745980512544436010673109889945022140111060443005125444360082823728241450221401116233539043974443600000000052214502205011107915540512544436000000526656550020050111751404706847444360000006563821475210501110584980054244443600244000034894502205011151896490757544436000480386507845022050111617858207752444360000000004744450220501115014388081844443600000000048274502210011158333470465344436009160000586545022010111171980605125444360087700004496575170101111088641061904443600832000046624502210111110885120665344436008250000696645022011111599682605525444360082502234257450220111117566503)
 (.leaf 10592444360083200004109450221011115965086105924443600835000047444502210111112960821059244436009790000315450020100111109573300000444360092100003670475211001110943147000004443600613000045164502210111156726701059233836005760000499047521101111610494510592338360068200005287525191011115819791105923383600819000055854752110011112762311059233836006640089544850020100111870272310592338360069800004881525191001116156231087924443600634000044565251910011154627911059230036006340000253350020100111079732010592300360068600008098450221011117893606105923003600799038084884502210111110212611059230036006890000374550020100111110291210592000360052802237865475211001111421465)))
 (.node 2 (.node 1 (.leaf 10592000360058500898710450221001117513118105920003600617000080984502210011180910181059200036006341544605845022010111165404710592000360083700008220330281001110999510105920003600835000085964302310011160422421059200036008350223880145022100111170852410592000360083500008916450221201116055836105920003600835079688854502212011118879501059228936007790089881845022120111862375210592193360077914528853450221201118120599105922893600837008988854502212011117372061059228936007662012760245022120111649991810592406360069819407550450221201118215814105924063600790000072974502212011115660171059240636006271452737055018140111110698509604444360061700007929600161401118184684)
 (.leaf 7104444360062303807623550181401111803109105924443600682245770063302814011115412501059244436006891792767762515140111165597610592444360096900007834650140501118261913105924443600890022377346001614011161852091059244436008280380779252519050111209779610592444360070403807548475211401112883139105924443600686052174905251914011160869081059244436006432415742462515140111782480610592444360063425797655550181401116379573105924443600634125973075501814011180320391059244436007421150733739025140111589828310592444360069806516039575170401116720183064464443600689000052106001605011116037170414844436006890000403360016050111849302704148444360068910384033600160401118191745))
 (.node 1 (.leaf 7329444360068900007758650140501114572822072034443600689000075165501805011161592460728044436006890000756952519050111601599606926444360068900006300525190501111518543067404443600689000059235251905011151417450707144436006450000704652519050111575642607134444360065700007292525190501115549397069724443600652000071515002005011158423340872244436006580000633245022050111530743308724444360065800006332450220501115307433088574443600567038089906751301011158580490961244436004670000902467513050111820627610592341360083700004827450221401111912165105923413600819000043375501805011119634371059223836003070000603241024050111182354010592238360065600896203410241201111655106)
 (.leaf 10592238360077100895653410241201111133245105922383600423000030014752110011178554640000044436006690000207947521100111104999904925444360084506513894430230401116013781048754443600845249837574302305011159335320504744436008240000471741024050111585845805252444360080707965756430230501115547955069104443600777079646165002004011161946941059244436007710000494450020140111583872810293444360080313566543410241401115869265102934443600782079679383902512011179903191058644436007661452863339025120111582749710592444360061711508577370261201115362460074804443600201000070363902505011152603670823244436004670000720141024120111202222009604444360033400006543410240501111742991))))))
 (.node 16 (.node 8 (.node 4 (.node 2 (.node 1 (.leaf 9604444360050500005884475211401116210604096044443600664052149445002014011179931640960444436006170000444250020050111170588610592115360062109205924525191401111989639099144443600777284179765002012011114511171059244436006230000677645022040111602915510592444360066900004559410241401111619696105924443600793322985734502212011162851691059244436007771544856841024120111810333010592000360080731198438450221211118090596096904443600819307988014502212111157631420699544436000260000586545022041111445679807276444360002600896509450220401115159167074304443600028000067764502204011143848040740444436000271259586545022040111135361310592063360011627453952450220401115809771)
 (.leaf 10592063360017624574109450220401117790867105920633600423331774964502212011157036061059206336007712304793445022120111773648810404444360077917148836450221211111687993105924443600771000057713302807111160623511059244436006170000860539025071111617259110592444360048600008528450220711116207560105884443600467000083174502207111159477871059244436004130380835743023161111163991010592444360071400008591370261011118029405105924443600714000086023702610111181798961059244436007140000864037026101111810490510592444360071400008699370261011117673656105924443600714000086853702616111178108021059244436007140000865337026161111572526609846444360071400008653370261611110985067))
 (.node 1 (.leaf 10592626360036609207235450221011111893184091484443600198000065794102410111164881880914844436003411038820635027101111588513609148444360060500008868525191011115812361086204443600777000089655751710111115405980914844436007660000899770012101111809846509148444360077100009004700121011118335287091484443600528000056484502210111110335850805944436002930000586445022101111580914308059444360035700008710450221011115749669080594443600400000088145251910111160506030805944436004500000847652519101111155767808059444360050500005701700121011112123708080594443600567115054316751310111152874841059226436005400651504367513101111759325708059444360027310384750625151001115284894)
 (.leaf 8059444360025700004496575171001115461232080594443600621187382646751310111173842180805944436003491714813070012101111514906308059444360021500003891625151011115565179080594443600273000031886001610111174708720645544436000570000331852519101111555708206455444360001000001969450221011110734475064554443600006000020174502210111156596560645544436000070000460245022101111057387208877444360001500007695450221011115287707088774443600104000084354752110111155517180958744436001760000871045022161111752837309807444360002400006813450221611117445786097724443600025000068134502216111173230920977244436001000000693945022161111507774709408444360017600006939450221611110726632)))
 (.node 2 (.node 1 (.leaf 9256444360023200008438450221611117774246092564443600232000083834502216111156891120925644436002150000533845022161111779984309256444360023200005564450221611117767277092564443600232000058644502216111177961900941644436001830000547745022161111575394008848444360014800005564450221611110708332096024443600349000058644502216111157165710960244436001860000547745022161111523205909602444360011300005338450221611115317588096024443600349000054084502216111150542650960244436003070000556445022161111537611009121444360019800008241450221611115250785091214443600334000081744502216111154959280946244436003660000861445022161111819797209462444360042300008665450221611111136130)
 (.leaf 10226444360044200008488450221611111647653101864443600576000085325501816111113187451018644436003220000866545022161111796567010186444360034900008614450221611115884154101864443600307000085734502216111178425090956244436006130000859557517101111136363808914444360047700008499475211011111876567094124443600442000085734502210111162597340917944436004420000572445022101111648211409179444360044200005788450221011116200544082594443600835000058114752110111114487100801844436008350000572445022101111836798408018444360083500005648450221011111369003080184443600837000069394502210111111127120801844436007420000564845022101111585860707840444360024700006641450221011115847909))
 (.node 1 (.leaf 10592271360000200005662450221011110744292105922713600072000049844502210111178823831059227136007790380850435027121111608343710592271360078209208491350271211116418672105922713600807000085773702612111158366430619044436008320000860539025121111141989806190444360068905215488410241201111163029061904443600192000048164302304011155630140619044436000550000425745022050111599500505125444360003300003489450220501118848167051254443600186038045724302305011118362710512544436003340000457243023050111143660305125444360002100004744450220501116221788067544443600176000044084502205011161188520512544436008372256556445022120111161936404397444360083724578020450221401111003918)
 (.leaf 4397444360000000006509450220501110883625072224443600000187339524502205011108920930597744436001590000381145022040111529122506552444360063406517934450220501116304984068174443600002000042574502205011115504150912444436000240380593045022140111480516806385444360000000892944450220501114353116080404443600427000069634502205011152891730776544436000000089474445022050111422835707304444360000000004257450220501114220922057994443600621051871354502201011126290830512544436009300222298352519010111115735006190444360082400005301600160101111494071078414443600824000056644752110111159546700784144436008350000564845022101111797639306653444360083500005477450221011118349484))))
 (.node 4 (.node 2 (.node 1 (.leaf 10592444360082800005408450221011111372920105921233600916000027304752110011112745671059212336008770000343147521100111788359010592338360079000003287450221001115765600105923383600486000034894502210011115076111059233836008190000493447521100111206771110592338360065600005801525191001111832956064574443600643000053055002010011177794200645744436006690000315450020100111568867610592300360076600005980475211001111228928105923003600819000080984502210111153573851059230036008350000595845022100111790395210592000360048600008573450221011117838731105920003600528064884384502210011178373751059200036006340000664145022100111618137210592000360077100008162390251001111325088)
 (.leaf 10592000360083500888885450221001111560444105920003600835091488994502212011118431471059216836008350088887245022120111554412710592168360079905187574450221201115819852105921933600799125276304502212011119575291059228936008371252889945022120111192021010592289360083605187718450221201118276512105922193600782114376874502212011178943681059240636008251707763045022120111184785610592406360066910296755475211401111449690096044443600656162571515002014011114730430960444436006231143771157517140111815237310592219360068213467630450221201116655203071044443600682240375504502214011161232851059244436006822692739639025140111102651910592444360068903767706625151401112014894))
 (.node 1 (.leaf 10592444360077118588925575171401111927331105924443600875114378935251912011159666951059244436008710518789352519120111128054710592444360065612527526430231201112022118105924443600639162571223502712011189063451059244436006342446762947521140111655078910592444360063437417018350271401111532469105924443600689000051196001604011118338920960444436006890000468760016040111849616804148444360068900884687600160501111348033096044443600689153550976001604011117259170512644436006890222578360016050111599593605126444360068907906687600160501117991337056894443600689000070976001605011121624000665144436007010000728160016050111607647607647444360068905187655550180501114268191)
 (.leaf 7491444360068903767596525190501115458114069094443600689000072255251905011148072490682344436006360000702850020050111582425308741444360065800006332450220501115307433087444443600658000063324502205011153074330601744436007140000616745022050111662364106689444360034900005958450220501116168651058354443600187000033724502205011157824790591044436001910000376245022050111573743308678444360071415358174450221401115433467057694443600335000038764502205011157411640624244436003590000586545022050111578355710592341360082505188219430231201115684910105923413600824000081524302312011156211120791244436005170000729943023050111613297507912444360028311437542390250501117989214)))
 (.node 2 (.node 1 (.leaf 10592444360079307908498370261201116035430060364443600283000053584102405011114552960479044436008240000348741024050111569957106440444360082400007681410240511115464033060114443600451000047174102405011158444680691044436008560000614445022050111123058104263444360080700006543410241401115950804085654443600766102972854102412011112256470839344436006170376717337026120111577783808826444360051700008408390250501114149509086664443600517008870363902512011133173350789144436003220000712541024140111580915407330444360019200006966410241201118216744096044443600742091455654502214011161835090991444436006050000401957517140111201624010592444360071400007113390251201118171631)
 (.leaf 10592444360076620008241450221201116306303105924443600777037682414502212011164013441059200036007821535843845022121111627029009545444360080320008665450221211111985748066554443600100134645774502204011118107860638944436000260000230745022050111811368710592063360002600002407450220501115750418105920633600027178031394502204011175301700977344436000271346348945022140111757237506939444360018614453521450221401111063472105884443600704051883173702607111114982961059244436006390000851143023071111280017210592444360069800008748430231011115997808105924443600714000085913702610111159423221059244436007140000864037026071111812121010592444360071400008577370261611111841729))
 (.node 1 (.leaf 10592444360071400008653370261611116205574098464443600719000086533702616111116394810984644436007190000901267513071111794545909846444360077100008980700121011118142630048404443600413000071164502210111118782280484044436002470648594943023101111554266804840444360030711435755430231011117575844091484443600477064885264102410111157356810862044436004671346853839025101111620566408620444360077100009017700121011111228798091484443600771000089977001210111177672890914844436007790000898267513101111137160409148444360006400006813450221001110942511080594443600215102969394502210111109776930805944436000130000185545022101111088473606455444360000000001262450221011115207585)
 (.leaf 8877444360000200000937450221011117485908088774443600008000030634502210111174896610830244436000090000294445022101111530434808877444360001400002721450221011115345198088774443600013022239304502210111152270580887744436000220000758245022101111508641009587444360002405187357450221011115326553095874443600021000079344502216111155345120958744436000020000616745022161111772811408603444360000000006058450221611115600356074264443600001000065424502216111114214680742644436000170000434445022161111070499109256444360002500005757450221611110696071092564443600232000056484502216111112901690941644436002150000540845022161111079518509602444360013600008138450221611110785227)))))
 (.node 8 (.node 4 (.node 2 (.node 1 (.leaf 9121444360011600004904450221611110713223094624443600032000050784502216111152506431030544436004420000866545022161111096969410074444360010400008614450221611118150634100744443600104000085734502216111158995991007444436001480000578845022161111571007310443444360036600008614450221611111452864103234443600293000086784752116111115811071018644436005920518863757517161111141747509412444360047700008726475211011111944060082594443600592000057884502210111158691130828244436008350000595247521101111819762508282444360083500008600500201011116121959082824443600835000060865501810111182944930801844436008360000729252519101111777839808018444360070400006997450221011111454063)
 (.leaf 7942444360000000006755475211011117957750105922713600057000043454502210111110195001059227136004230088507845022101111101160410592520360084900008885450221011111659806061904443600215008882194302312011157747400494544436000270000474445022050111119974206713444360011600004408450220501111065080067544443600000000045774502205011117832090675444436000040000474445022040111615053206754444360083725317838450220501111800844051254443600664008846624502205011183415340439744436000000000425745022050111566712304397444360000000004516450220501110955130069484443600000000036564502205011109784190683144436000000000365645022050111483353900000489360023200003930450220501111180878))
 (.node 1 (.leaf 6757444360002400004208450220501115531647086614443600027114374964502205011173639710558944436006560914523143023050111587339405513444360079902224970430230501115534394081874443600955000085264102414011150814310771644436006070000767145022050111561145206637444360017400004744450220501115314356062444443600592000055654502201011123039851059244436009340000369452519010111137726005622444360078200005697600160101116200704078414443600664000056166001610111119479160784144436008320000607145022101111186245607848444360083500005788450221011116095092105924443600825000049234752110111162358871059212336006230000474445022101111609627110592338360054902216737450221011111339234)
 (.leaf 10592338360056700005864450221011118047393105923383600601000061734502210111182728281059233836007090000623445022101111606971210592338360081900006324475211001111860054105923383600719000071035002010011112920670000048036007710000306847521100111600111806457444360054900008174450221011111153985105920003600621000079344502210111114703731059200036005170000831745022101111587730110592000360051700008488450221011117778970105920003600442000086144502210111115397441059200036008320000878145022100111568252810592000360080700878815500201001115908517105920003600799000087625251910011115061861059200036008360000881550020100111154537810592000360083500878836450221201117773755)))
 (.node 2 (.node 1 (.leaf 10592168360083711338972650141201117862335105922053600837161488975002012011161314231059219336008370514891645022120111620805310592219360083709098899450221201118451641105922193600837192376874502212011179554151059240636008370909752345022120111805980810592406360068905147116450221201112150947105922193600682342675484752112011161389231059221936006824050738543023140111856996510592444360068240725771330281401110647749105923013600689177077645751714011162389251059230136006891334892950020120111823428310592444360068614357685500201401111970740105924443600896090978195251912011182363381059244436007090782655725032120111143654810592444360063426467685500201201112428955)
 (.leaf 10592444360063432837359390251401110946751105924443600682364978454752114011149053771059244436006821770776945022140111512661310592444360074233197820450221401115430665105924443600824335169275251914011116998560960444436007040644527357517040111802736609604444360070414355091575170401111959181096044443600686102160475501804011117996460960444436006890221451760016040111628822505253444360068912446918600160501111803336082624443600689064477155002005011161515020595644436007140000490445022050111659771506433444360047705146298450220501112074831105923793600617051465424502214011163471030589844436004860000522145022050111594241505216444360062309094080450220501111454094))
 (.node 1 (.leaf 4717444360082400003656450220501115543526047734443600790000036564502205011158322160533444436007420000586545022050111547460406903444360077900006509450221401115769907053504443600782078261444502205011160010310539544436008242118677645022050111604585505316444360077100875456430230501116233117052084443600790184849744502205011160470100824844436008190514667043023140111605687008248444360068922347590430231401111253937082484443600825133478164302314011175674410791244436005580370761345022120111190300410592444360022100008605390251001115282080084944443600349367278533902508111150034010757744436004862170720141024080111584029306624444360080705146324475210801116201785)
 (.leaf 6515444360085303705305500200801116158411058484443600510000050485251905011156030050758544436007900000745441024050111115893908525444360077107827816430231201115819789085254443600825051481524302312011180319170426344436008240370667043023140111847694608318444360077105147201410241201111440552086194443600517000078533902508011145168650733044436006560000620341024140111834716009604444360014803706037430231401111593709099144443600413000052625002014011161559480991444436006230000684152519140111143379109914444360077100005565450221401111370330105924443600698113342574502212011180190321059244436007043215793445022120111165882010592444360070405147613450221201111773857))))
 (.node 4 (.node 2 (.node 1 (.leaf 8211444360068218487731450221201111600226091184443600704078284884502212111160744520921944436007140000852845022121111477793206864444360011300875865450220501115747484056494443600033113326814502205011157279210758344436000260514227445022100111546880410592063360002609092143450221001115252040105920633600027000017204502210011174669600693944436000280000154245022100111770353406939444360002600871782450221001117799851069394443600341371144084502204011178564810693944436006643107781643023120111112378710592444360071400005525290300711116396703105884443600689000086193902507111121085861059244436007140000851437026071111846722910592444360071400008523370260711118288544)
 (.leaf 10592444360070900008526410240711111867499105924443600742000085013902507111118308741059244436007140000861337026071111809004010592444360071400008591370260711117962890105924443600714000085593702616111181494731059244436007140000857737026161111791416210592444360071400008602370261611111762858098464443600742000086253702616111118108370984644436006170000901055018161111790084509846444360068600008970675130711119059156098464443600704000089496751307111184371490984644436007710000898070012101111582568204840444360059210218614450221011111104577048404443600100037060494302310111113800770862044436002831334662143023101111801794408620444360077716967364410241011116029023))
 (.node 1 (.leaf 8620444360071900008718600161011112082947091484443600836000085814502210111160299240914844436000080909474445022100111127803008059444360001502217934450221001117694094080594443600104169669984502210011156970070805944436000194034612845022100111551151508059444360001032833574450221001115275541080594443600011090930264302310011149326050805944436000070000247345022100111531461008059444360017605144330525191001110820273080594443600116000034863902510011108579610805944436000600087309937026100111527718108059444360048600002645310291001115387021080594443600567064449483102910011109216420805944436000060000307145022101111110277708877444360000500002999450221011117534969)
 (.leaf 8877444360000000001993450221011115396313088774443600000000012734502210111176077920887744436000000000204045022101111731741408877444360000800002070450221001117596450083024443600002000046554502210111110494760830244436000200221425745022161111513825208302444360002100003304450221611110700400083024443600019000047444502216111156703430977944436000210000749645022161111547175809779444360002100006298450221611115796754097794443600033000080984502216111157816030952444436000280000749645022161111545926909524444360002000007392450221611115805732095244443600017000067424502216111155133570952444436000110000408645022101111775198609256444360000700004101450221611110862856)))
 (.node 2 (.node 1 (.leaf 9256444360016400006542450221611111044110092564443600144000051734502216111112690360965244436000240000513345022161111578493209652444360013400005564450221611115764638094164443600057000054084502216111155429740941644436001040000525145022161111748549009495444360016400005338450221611110975194094954443600232000082414502216111158035960949544436000640000517345022161111747707009104444360001300005173450221611110880135091044443600013000052514502216111108546420934644436000570000556445022161111093492509181444360030700005408450221611114855269096204443600341000054084502216111176644100962044436001700000525145022161111573668209989444360001700008528450221611111538977)
 (.leaf 10272444360004800008573450221611117590954102724443600423000060104502216111155864961044344436004000000866545022161111153741510443444360030700008800475211611111725791101864443600477000086005002016111179592521018644436001760000578845022161111139204909552444360016400008573450221011116054085095494443600423000085734502210111117445320954944436006230000880145022101111177083508635444360070400008801450221011116242102082824443600835000088916251510111118651400794244436008350000864862515101111189583810592271360083500008975575171011118327403105922713600824000089655751710111118914751059227136008422435855339025120111790592206190444360062705145530430231201115711530))
 (.node 1 (.leaf 6190444360016400005145430231201115842958061904443600148037047374302314011177549000512544436000000000425745022050111173396005125444360000702214744450220501111523865067134443600003000039524502204011115397300671344436000000000410945022050111168149806713444360000700003952450220501117859676067544443600033000058654502204011114063500597844436001160000395245022050111117470206106444360002233404109450220501115757019072524443600000051440804502205011157744100721144436000000000497445022040111526906007590444360000000004577450220401115816144061614443600053000036564502204011156075590684544436000000000365645022050111463078307440444360000009094257450220401115669331)
 (.leaf 489360044202214086450220501111496883056724443600879000073354102405011180378620567244436007660370738643023050111803213207736444360097100008487410241401115972560085474443600984000085673902514011158980370803344436009840087845839025140111604283607412444360054000005648450220501115910964105924443600682090234894502201011162779931059241836006820000586545022010111770243010592143360089800004630525190101118174408105921433600643000054506001601111123947570623644436008460000510247521101111587896306697444360084900005564450221011115890037079754443600825000062344502210111161019700665344436008070000492347521101111614187910592054360083200004827450221001111730501))))))))
 (.node 64 (.node 32 (.node 16 (.node 8 (.node 4 (.node 2 (.node 1 (.leaf 10592123360060500005173450221011116147081105923383600836271254404502210011116944251059233836007090000547350020100111145732910592338360074200004106500201001118045261000004803600824000083964752110111116131720000048036006560000407447521100111164764406457444360065603646194475211001111434941064574443600621000056484502210111177629971059200036005580000824145022101111165408210592000360080300007174450221001116011706105920003600824051087104502210011179951631059200036008350000841643023100111590248410592000360083500868548430231001117721553105920003600835051086654502210011114862411059219336008370510894445022120111201883810592193360083713258916450221201118271160)
 (.leaf 10592219360083731597660450221201118158689105924063600790077471164502214011162451191059221936008190641693945022140111621715210592444360068237917401430231401116513370105924443600682405557503302814011104916561059230136006822869774245022140111212684610592444360068236087630450221401116229754105924443600689420476024502214011163857871059244436008393993776443023140111602536910592444360063426737792525191201115788363105924443600634090277424502212011155171831059244436006340510771443023140111071978810592444360082841537358450221401112050589105924443600779160068844502214011117496931059244436007931690642645022140111596681610592444360084209026426450221401115807816))
 (.node 1 (.leaf 10592444360083700866426450221401115724932105924443600837064162984502214011179600790960444436006982106596557517040111176861709604444360068922246812650140501112061931058024443600714000047444502205011154081950652144436006690000605845022140111199582606640444360034900004974450221401118289782105923793600064000045164502214011114431470960444436004500902739245022140111560129409604444360076600007445450221401117678814105923603600777000074454502212011157540311059236036008190000759043023120111565131410592444360081900007496450221001112297094105924443600828000069664502212011182096811059244436008281325730345022120111591553010592444360074200004597475210501111575401)
 (.leaf 10592047360038400003022475211001117726486105923413600558000028795002010011176163220681444436005170000291352519050111775884210592341360034900003065500200501116027536105923413600357000027304752105011159607840728444436005050000387645022050111191228505755444360085800004715525190811115234501047324443600853000038525251905111158223210549144436004620000390252519051111543437605653444360082400004962525190511113504351071844443600824008681924102405111146549900768044436008460000481643023120111582796604263444360082413256776450221201115928253067854443600839000049044502214011117688770941844436006170000797837026120111565598508180444360051700007432390250801113980444)))
 (.node 2 (.node 1 (.leaf 6583444360051700006677390250501114636835078934443600517000066773902510011157476660761744436005170219639339025140111642536507158444360038400006203410241401118148378071584443600232000047764302314011159832020960444436003070364439747521140111586851607158444360030700004694475211401111846092099144443600634160075475002014011181122090991444436006130510431657517140111154910605697444360070400004120410241401115817554105924443600669000044904302304011120078371059244436006690000330445022040111782337508170444360065600003757430230401115834811105924443600656112668914302304011180973240826744436006430000689143023040111167529308267444360063406417914430231201115982494)
 (.leaf 7187444360069818377353390251201111662762063774443600168000047084502205011155404160758344436001481426749645022050111146202607969444360003300002721450220501118072848105924443600026000023074502210011179361871059244436000270000169845022100111114876106939444360002600001914450221001110944725069394443600026000016864502210011111661830851444436004002224654341024100111176433010592444360077900005314250320711115529244105924443600719000085593702607111118210341059244436007420000853437026071111223325010592444360071400008534370260711118355413105924443600682000085233702616111183389271059244436006560000853437026161111622220310592444360071400008546370261611116006351))
 (.node 1 (.leaf 10592444360071400008534370261611115978841098464443600643000086023702616111181983570984644436006050510850733028121111597526709846444360086520498653370261211115606819098464443600793000088695002007111159180210984644436007710000902870012071111697016510238444360077100008960675130711116427863102384443600742000085845501807111184848710984644436007660000858765014071111597215009846444360077100008709700120711116154763098464443600771000087097001210111172280730984644436007710000893470012101111867553510592000360035700008539350271011116005531105920003600357183756393902510011114311210862044436001442429623641024101111099910109148444360002823795823450221011117703709)
 (.leaf 9148444360011326734649450221001115638844091484443600104360866714502210011152450760914844436000183758644245022120111534861909148444360002039135192450221001115376311091484443600028000027424502210011111088050914844436001130000381145022100111512618709148444360001709024426450221001115482384091484443600015132552544502210011153007660914844436000051426524543023100111112778808059444360000300005284430231001115583582080594443600025051035234102410011110690560805944436000000000159745022101111106972508064444360000000002347450221011111230593080644443600000000027094502210111111369880806444436000000000226745022101111098156108302444360000000002269450221011111142771))))
 (.node 4 (.node 2 (.node 1 (.leaf 9524444360011600007838450221611110880004099024443600020000061674502216111176693320990244436000250000688445022161111561542309256444360017600007116450221611115741966096524443600232000056484502216111155391061031844436002320000564845022161111576441608455444360023200008528450221611115075823103274443600232000086144502216111151825041032744436002320000866545022161111749650210327444360025700006010450221611115596151102914443600232000061734502216111112951071029144436002320000593045022161111130267410272444360033400005477450221611110998196102724443600247000061434502216111157868051027244436002320000880145022161111795252210443444360023200008710450221611116014357)
 (.leaf 10443444360023200006071450221611111748042094994443600232000085734502210111114584880874944436002830000857345022101111203012008635444360070900008710450221011112129254087084443600835000087576001610111162434490932744436003340000869450020101111237443610592271360000000005008475211011116050987105922713600000000044084502210111178017311059227136000270000466245022101111823136010592271360084200004984450221011111510411089964443600777000088465751710111114480820899644436008250000884952519121111832568408996444360079002195738370261201116246404089964443600060021949844502212011113102251059227136000041981540845022120111791536506713444360000300003952450220501111360261))
 (.node 1 (.leaf 6157444360055800005078450220401115330896062634443600592000051734502204011153326860717044436003860000656745022040111537793105411444360083705106298450220401114220397053874443600837132562984502204011155980720699344436000520000556545022040111564471306386444360000000002944450220501115926643074284443600000021942574502205011154232730609844436008670774449043023140111570026105361444360061300004662450220501115814483071144443600442000046624502205011120059640582144436007950000728541024050111592138707917444360083300007786410241401115915118052584443600540123233044502201011166618440514244436006130000313945022010111834072610592418360069830656068390250111111411464)
 (.leaf 10592143360083700005408450221011111655723065284443600824000048274502210111182246840652844436008350357494641024101111588304006907444360084800005083390251011116341080079754443600669000053215251910111117819490651044436006860000504852519101111582806010592054360082800005102475211011115995733105921233600558000054084502210111159524941059212336006170000572445022100111800883210592338360081900004904450221011115918799105923383600799021862984502210111159096711059233836006170000654245022101111584307106708444360083200006058450221011115459391067084443600828050658654502210011159639830670844436006890000700852519100111151295110592072360044200008818450221011116009063)))
 (.node 2 (.node 1 (.leaf 10592072360044200008710450221011118018655096324443600442000084384502210011181334981059200036005170000861445022101111161114310592000360071900005078450221001111648694105926263600627000089207001210011164615071059262636006170000882370012100111199592510592000360061700008969700121001111921454105924443600617000089977001210011121709421059244436008371827867847521120111585756410592444360083708958665450221201115924792105921683600837050686115251912011177513421059219336008371008887245022120111807982810592219360083720977630450221201118109046105924063600682182769974502214011121039781059221936008191752760245022120111164099310592444360077741926261410241401110557193)
 (.leaf 10592444360068213197660450221401112628983105923013600682370676604502214011185239051059244436007043766771747521140111217121210592444360083906385574290301201110538268105924443600790035775744502214011156203231059244436008373091688445022140111605990310592444360085817526058450221401111484182105924443600858021852214502204011181281140960444436008560506497445022040111614792104580444360071429155119600160401115985157096044443600689319370006501405011125299810512644436006893904706965014050111600031806411444360068942126071450220501112703704083844443600555000066955002005011158735420960444436000260000387645022080111168521109604444360083900008614450221211111295500))
 (.node 1 (.leaf 10592360360082813198080430231201111281384105924443600799000069664502212011181874231059244436008030000614445022120111594098610592444360083200007997430231211115871461026264443600828000073034502212011157715110262644436008280000646345022080111556155606814444360082400005179450220801115579897068144443600558000035974752105011179273180657344436005050085519847521050111176819404736444360065600002746525190501115513233061164443600799000031635251905011118071240683244436005180000705652519051111482209708240444360049000007593410240511114825102089604443600824000081924102412111156942140812044436009390000533845022120111576487304263444360082505065456430231401112058979)
 (.leaf 7097444360082803575721430231201111684411080214443600499000066773902512111157058580607044436005170000524139025050111624161407088444360051700005241390251401115978045067644443600613242259245251912011179605350676444436006890000351550020140111142536905697444360068600003894430231201115973618081704443600686076439524502205011120112400817044436006981008805637026121111170070607116444360068612324774390251201112230839058734443600496000052514502205011159488060594844436004970000556545022050111570935206275444360045900006509450220501115732348061834443600404000058654502205111156808020700044436007710000824145022051111577201010592444360002810083811450221401111610979)))))
 (.node 8 (.node 4 (.node 2 (.node 1 (.leaf 10592352360020717526509450220401117778555105923523600293021851454302310011157727871059235236001360218410945022140111542855910592352360006021533906450221001118002476069394443600033000016164502210011177674180693944436000270000176845022100111791437006939444360002800002125450221001115707442069394443600033008546934502210011179682910910044436003490218396641024101111174398310592444360071400008559370260711112431502105924443600714000085593702607111154364731059244436007140000855937026071111586685610592444360071400008534370260711112362352105924443600623258085293302807111120334910984644436006210000864150020161111591604709846444360068900008972650141611116445961)
 (.leaf 9846444360068600009000625151611116049743102384443600704000090056751307111121474631023844436007140000872647521071111199815810238444360071410088499475210711115986624102384443600742000086375751707111160255920984644436007660000877162515071111659316910245444360076600008746675131011116295402098464443600771000089597001210111186741761059200036007710000901170012071111839401810592000360077100009004700120711118947469105920003600170050645594102410011114740370000044436000070000305145022100111764893308620444360002800003053450221001115510361086204443600005089530254502210011151888200862044436000050000316545022100111564665908620444360000907642599450221001117555064))
 (.node 1 (.leaf 10592435360000700852607450221001110998092091484443600018008524794502210011110777630914844436000131752232143023100111116204908064444360002102181603450221001111152594080644443600015000014384502210011113510600805944436000030000039145022150111562190008064444360000000000430450221601117890862080644443600000000012194502210011178013790806444436000000000252945022101111551835708064444360000000003506450221011115822190080644443600000000051394502210111157883230806444436000020000405645022101111578233108064444360001700004408450221011115731176080644443600069000042104502210111156313730934444436000170000642645022161111137810708302444360002700005078450221611115726278)
 (.leaf 9779444360056700005864450221611115732270097794443600714000058644502216111159841240977944436007140000572445022161111591319309524444360071400006997450221611115881299099024443600134000069974502216111113634980925644436000270000547745022161111589095509652444360001800005648450221611115944387096524443600617000057244502216111157350631031844436002320000586445022161111163997410215444360023200008488450221611111543145098414443600232000084384502216111156986050962044436002570000849947521161111131912910272444360034900005835500201611111348424103604443600431000085734502216111157683860949944436005850000848741024101111774246809499444360042300008573450221011115636415)))
 (.node 2 (.node 1 (.leaf 8881444360044200008614450221011111844583095494443600634000086144502210111160021310836444436008350000540845022101111593558208220444360083500005477450221011116418136078014443600835021854084502210111114967540829544436008350000547745022101111613329610592244360000000004923475211011115737401105922713600011000039634752110111114131121059227136003840085519647521101111577635910592271360011600005029500201011115861157081714443600019000052764752110111113038760899644436006891970531943023121111161403608996444360002102184577450220501112046288049454443600064021849044502214011178126120494544436003220000497043023120111157190004945444360005510084827450220501112635890)
 (.leaf 4945444360006405065319430230501112777836049454443600000000047714502205011160327790671344436000030506365645022050111604170505437444360060500854191430230501116371568038424443600984000041873902505011140003270768244436000000000457745022050111531587206151444360036600004662450220501115362959057764443600983141748274502214011147509240428444436009821319517345022050111487467006961444360095200007681410241401115711034061114443600192000041094502205011159725870663444436001130000457745022050111582192005317444360054000002516450220101111630924071554443600807008453384502210011159290650763044436008320000586445022101111226133006769444360083500004792350271011115775214))
 (.node 1 (.leaf 6825444360082500004601370261011111725115083904443600669000050784502210111114612901059200036008350000525145022101111576182510592054360083500005440450221001118444519105923383600828000042574502210011113047070670844436006860000616745022101111569002206708444360079300005865450221011115915642067084443600613000065194302310111156255041059207236008350084783845022101111162344609632444360046700008818450221011111933394105920233600540063383834502210111121542671059200036006270000844847521100111600520810592000360083500008763450221001115985329105920883600836000087814502210011116688881059260036006270000882370012100111615474410592626360061700008419700121001112940702)
 (.leaf 10592444360080302178831550181201111554758105924043600837063385284502212011152808441059219336008360633852845022120111168862810592219360082419577630450221201112443058105924443600824417876604502212011161940141059244436008244226779545022140111727522510592444360071938126702525191401114734789105924443600643253478445251914011157150941059244436006821500776945022140111188733110592277360068220917742450221401118224344105922773600714253478214752112011160108251059244436006823954636445022140111496794810592444360068227667630450221401115992343105924443600819158470574502214011185073011059244436008581891688445022040111608297110592444360085820296298450220401111636192))))
 (.node 4 (.node 2 (.node 1 (.leaf 10592444360085811035865450220401117758491049694443600858000058654502204011177877831059244436008581669595845022140111561346010592444360085814056167450221401111859120105924443600858166961674502214011160847221059244436008580891642645022040111611755605162444360068926886942650140401115386830053784443600689214358046501404011156709840621944436006894099757247521050111545185106247444360068932096327500200501115835290074244443600689241166276751305011150580251009544436001980000642630000050111539550005677444360063405013656450220801111661666065094443600517000041094502208011182249011059238136006050000457745022080111582107710592381360032200004577450220801116197699)
 (.leaf 10592360360083200848462430231211111678947105923603600836000078384502212111117012531059244436008350000739245022071111168216306541444360082802177357450220811117835176065414443600824100271174752105011156992410569544436008190000492347521050111593020306745444360066900007454410240511115405713046364443600858000036945251905111150652010476344436008240000352852519050111598077409269444360089623055319430231201115769430073064443600819000062034102414011181504010730644436008240000502941024140111605570007666444360083500005756430231401118045015079524443600849000069664502212011116392070626744436006890000703639025051111500695907158444360062700007369410241201112833880))
 (.node 1 (.leaf 6764444360024700003671525191401111596201067644443600714000039775002014011115377240601444436006690000373243023050111788392808170444360063400003670475210511116235300081704443600643000031474752105111156850030826744436006820342425741024120111182701108267444360068907537753390251211115487263070784443600689021773533902504111125793130685444436000280000525145022050111627334206843444360002800005565450220501115730338065224443600226008465094502205011158427390577144436005050000556545022050111542509705262444360076600005865450220501115799325067244443600771034258654502214011155251660616544436000270753261545022050111169910310592352360005706332835450220501111445025)
 (.leaf 10592352360042330197036390251201118099724105923523600064214317354502210011155500170661744436000330000181145022100111755862206617444360002600002835450221011111690424105924443600719034288204302307111122133491059244436007140000851437026071111599415510592444360071400008546370260711115962059105924443600714000085463702616111120727301059244436007140000854637026161111611835610592444360070900008577370261611116483784105920003600686000089496751307111125388231023844436007710000894870012161111625386310245444360058506338604600160711111747271102454443600771000090417001207111116916481059200036007710000903370012071111823241410592000360077100009023700120711116214805)))
 (.node 2 (.node 1 (.leaf 10592000360077100008997700120711118547849048404443600643000085284502210111157561770484044436001571744824145022101111781288500000444360044200002875410241001111206299105924353600283021732544102410011113629431059243536000181744316145022100111127468302815444360002400005052450221001111173707028154443600024000021404502210111115249620000062636000010000193145022101111142875908064444360000000001822450221011111274261080644443600013000033724502216111175725690806444436000100000552145022101111552769108064444360000000006426450221611111328509093444443600215000068844502216111113969070830244436002320000572445022161111778951208302444360062700005864450221611117813787)
 (.leaf 8064444360071400005724450221611115919427080644443600714000059304502216111158982730990244436007140000578845022161111800730609902444360071400005864450221611115835711099024443600719000072735002016111162115050990244436000180000564845022161111141246309652444360000000005724450221611111900833100584443600011000057884502216111115786360845544436002730000881845022161111123777410022444360077100008969700121611111859633101554443600257000073764752116111161568381025544436002320000749545022161111576682509841444360023200007417450221611115836370098414443600232000072974502216111158243861028544436002320000735845022161111583723010285444360013600008710450221611116013841))
 (.node 1 (.leaf 10272444360032200008614450221611115636942102724443600307000083834502216111176844941027244436001920000556445022161111567546310443444360005700005564450221611115936341068144443600008000057244502210111158067550681444436000130000540845022101111576877906814444360001300005564450221011117883763088814443600136050157244502210111115000590888144436006640000578845022101111593725108749444360080700005648450221011115816116086354443600837000054774502210111158384050863544436007770000556445022101111606216007348444360083606335408450221011118052176073484443600837000055644502210111158383230734844436008370000578845022101111585539907847444360083702175724450221011111825759)
 (.leaf 10592244360001100004847475211011111323977105922443600069000041234752110111160256421059227136000040000396347521101111786856710592271360002716694123475211011111832720081714443600558021748164302312111180195760817144436000691223482745022121111115191508996444360055819575231430231211116070795089964443600890050187284102412111182210320837344436000000000440845022050111196453506844444360002100004577450220501116124571068444443600176075341094502205011121617440494544436000000000490445022050111869960110592444360000000004415450220501116155046067134443600000000042284502205011160251170671344436000000000294445022050111590038907358444360001711034662450220501115530389))))))
 (.node 16 (.node 8 (.node 4 (.node 2 (.node 1 (.leaf 6609444360018600004662450220501115767548056904443600689166948274502205011154661680747744436000000000425745022050111472458805812444360039200004109450220501115897254087934443600664000038114502201011118771940879344436007090000272145022010111569946610592170360069803403304450220101115843991105921703600835000044463702610111121164620718244436008350000460137026101111576766506672444360083500004559410241011115731139083904443600226000085284502210111158014101059200036006390000490445022101111596841610592054360074200005865450221011115795641105920003600442000065424502210111156834591059200036005580000693945022101111786844306708444360028300006542450221011111571312)
 (.leaf 10592072360082804987934450221001117961039105920723600605000083834502210111158522711059207236005280000749645022101111176968410592072360044200008174450221011115774589105920723600442000085734502210111158215321059207236008190000775447521100111191647710592023360068200004699500201001111745986105920003600832000055854752110011178496251059208836008352756881845022100111160681910592088360077700008779550181001118143014105920003600835049886144502210011114492351059240436008250340852845022120111578408210592193360082412137297450221201112218645105923483600807180976304502212011187985981059244436006691886776847521120111194139110592258360068219477795450221201118199670))
 (.node 1 (.leaf 10592444360069827567795450221201117719966105924443600682376177184502214011156157461059244436006824208752345022140111585670410592390360068240637495450221401116145016051254443600766410275234502214011183494280512544436008563464699745022140111621613110592444360083721896641450220401112143521105924443600858109768134502204011162289640527244436008584137533845022040111624617205876444360068933757213600160401115438486078924443600689130465776501404011137465710677044436006890083641267513040111485427909870444360068904986721675131401115125646092154443600198000066276751305011151930571059236036007710000788550020120111829379410592360360080300004577450221201118017452)
 (.leaf 10592385360083200007914430231211118013140105924443600828000077104302312111118505301059204736008350000759043023071111779549710592047360079300007885410240711112296783079924443600837000078384502212111154752790775444436008360083761345022121111581000706129444360082400004577450220811113325568073574443600567000047443000008111163281820633244436008360000504852519081111591019106658444360082400005232525190811115075543088624443600742008378533902512011161262360730644436008490340696645022120111190787708002444360079300007285410241201117944184089804443600689149083553902509111159253810927744436006890000809039025121111645992507604444360070402164310390251201112052631)))
 (.node 2 (.node 1 (.leaf 7158444360061700005516550181401118131439067644443600605049863175751712011119644950709444436006980498375743023121111581581608027444360070408834737430231201115772700080274443600714000042574102412011176418870826744436007090629800835027121111130507708816444360063900837753390251201115741412090334443600357234580804302312011151482590691644436006232644619939025050111586936707171444360061700007542390250501116091716089944443600617000078533902512011159475850718644436000280340586545022050111620318006127444360066400003811450220511111579592089854443600771034071354502212011160318540540944436004860000330445022050111584428005234444360034000002516450220501115374925)
 (.leaf 5320444360032700002615450220501115285020055234443600486008334894502205011153672560511644436003070000251645022050111560311810592386360002800002721450221001111405297105923523600322021645774502210011117883431059235236000281402689143023120111165071210592352360011613044633430231001111371205086774443600183049843234302310011116410641059244436007140000572931029161111431198110592444360071400008428370260711112412589105924443600689000085013902516111121783601059244436007190000851437026161111227518610592444360023200008957450221611115814244105920003600709000089697001207111122497241053644436005580000873957517071111640616210238444360030700008555500200711116094074))
 (.node 1 (.leaf 10535444360023200007116450220711116035593105354443600293000085884752107111159147911053544436005760000886460016071111819581510160444360071900009023700120711118136394101604443600719000090346751307111185510091016044436007710000899262515071111886193710592000360077100008969700120711118518062048404443600714034089376251507111185778370484044436005763354419143023100111170080104840444360047722472478390251001117766860105920003600341021635794102410011155341071059200036005492247499741024101111561111110592000360079936457681410241011117730961105920003600334213243354102410011178047361059200036001642399368241024100111783400308064444360000300001603450221011111365802)
 (.leaf 8064444360010000006058450221611116064094080644443600013000061674502216111118763880806444436000170000693945022161111183225208064444360000600006939450221611115870307080644443600148000069974502216111159835070806444436008910000703043023161111546886308064444360055800006997450221611111495701099754443600144008357884502216111115547220806444436000570083556445022161111527497508064444360000800005408450221611115202909080644443600000000056484502216111154603011005844436000000000578845022161111179735308455444360066900007235450221611117606826084554443600807000090136501416111154938031059244436007710000900062515161111599699910022444360077100008709700121611112680256))))
 (.node 4 (.node 2 (.node 1 (.leaf 10285444360036600008438450221611111888883068144443600015000048274502216111117976580681444436003220000556445022101111179589208881444360060502165477450221011115763161087494443600442000054084502210111115891960874944436002320000498445022101111575920306814444360011600004662450221011115551595077044443600022000050784502210111179919770734844436008070996540845022101111197837507348444360002700004847475211011111737069000004443600000000044214752110111157913800000044436000000000350147521101111832965900000444360001400004139500201011118350709105922443600000000041234752112111163574371059227136000690216457745022121111792443108171444360035702164737430231211111486874)
 (.leaf 8712444360052800005054430231211118218660083734443600000000038114502205011124085100684444436000000498313945022050111617790105430444360022100003489450220501115864488067144443600060000034894502205011119734740820444436000000000490445022050111509379907875444360000000004662450220501115506206052934443600907000051184102405011156416400693344436006950000564845022051111591096410592170360068200824408450220101112350080105921703600682000049044502201111181400470715144436008350000471835027101111207016307228444360082400004850390251011115728356077494443600793000082414502210111157888520839044436002730000809845022101111564829808277444360022100006298450221001115889234))
 (.node 1 (.leaf 8669444360022100006939450221011115368708078264443600221000069394502210111117770420782644436005920000713337026161111202659506708444360060500006497370261011115209409067084443600824099145164502210011177868560670844436007820000402545022100111760887310592019360077900004232450221001115452121105920723600793099184384502210111116808871059207236007900000715247521100111828022610592072360063900003933500201001118100013105920233600540000079594752110011178851811059200036006430000395450020100111590581310592000360070924337781500201001117989783105926263600819000087634502210011157239501059260036006860000861445022101111210851610592626360079000828941550181001112299873)
 (.leaf 10592000360068900008771625151001118045171105920753600835139289164502212011122568421059240436008240746735845022120111794367710592177360082400827297450221201115770175105921773600824033972354502214011158495781059225736008190215749545022140111187498910592219360081914777687450221201112356706105923483600766200676024502212011124225411059244436008240878782045022120111202317610592444360078213927820500201201111718229105922773600686207379094502212011182609681059227736007143332784445022120111577936510592444360068618777844450221201118669747105924443600682354677184502212011125095991059239036007042291723545022140111601894210592390360068931537417450221401112055349)))
 (.node 2 (.node 1 (.leaf 10592444360068215646542450221401112824729049694443600844233266414502214011184527351059244436008422473629845022040111834431204969444360083223896058450220401118189057105924443600853021560584502204011122388530782444436008582291605845022040111861447410592444360084432466641450220401112306267050944443600719381454774502204011123424750797044436008584209887047521050111498704109797444360085836688884475211401115565426095004443600858207388704752114011137927090738244436007140000410945022080111210639407137444360071400824662450220801118283049105923813600771000047805002008011158330401059238136008450000828350020120111819368510592381360080700008040475211211111974424)
 (.leaf 10592360360084400005377500201211115808980105923603600835187747805002012011160305711059238536008320878742850020100111554722410592385360082400007914430231211111750893105921883600828000078384502207111118164071059244436008280000781643023071111818620510592047360082800007210430230711111985174105920473600828000073034502208111162225270814844436008440000681345022121111612307305736444360082400824456525190801112582426059574443600824008246305251908111158064991059244436004120000883743023121111587474510592444360041900008837430231211115896026074644443600943347154774502212011150806560681944436008440000636143023120111182685908637444360084600826776450221211115763505))
 (.node 1 (.leaf 8092444360076600007369410241211112275628084854443600719033982624102408111159798190975744436007420625866841024081111591964810592444360082400008728410241211115141264076044443600704049371133902512011117326000625944436005760082412041024140111567516807641444360035704936885390251201115632916082854443600558049381924102412111157808840709444436006430000454539025121111200335007568444360051700004387390251211115853011084734443600698008276814102412111147891800848444436007040000754239025120111539285107991444360069800007187390251201115757114080944443600689000051454302312111146723720700544436004310000642645022050111551875507977444360064314776271430231201115769435)
 (.leaf 7390444360063912985755430231201115893181084874443600686021570504302314011160518450672044436002930493650945022050111633238306127444360046703393656450220501118216854061274443600656008244084502210011159323620612744436007190000410945022100111813751109914444360066400004257450221011117992916099144443600505008239524502210111116448790923544436007190339440845022101111192008907300444360055800003489450221401115957573059974443600477008231394502214011161532810519444436004000082294445022050111572553305074444360035704932615450220501114839089053074443600232000024074502210011115890281059238636004000000313945022100111169238810592352360023200004577450221001116200725)))))
 (.node 8 (.node 4 (.node 2 (.node 1 (.leaf 10592352360038409914904450221001112234589105923523600170193934894502210011114927521059235236000260991343043023141111155282010592352360045015648049410241201116171495105923523600307074663614302312011158714620930844436003220991636143023120111824631510332444360062300007976500200711112388116105924443600682033966784502207111160409051059244436007190000665245022161111529169310592444360071400009021600160711111761506105924443600307000085955751716111120965541059244436005580000864150020161111252967510377444360071900008885450221611116035886103774443600682000089056751316111184540191059244436002320000866545022161111601139110592444360023200008710450221611118767757)
 (.leaf 10592444360000600000000000031611118153641105924443600006000000000000307111156430751059244436000060000000000003071111551613010592626360044200008872450221611116109206105920003600585000090296751316111121073351053644436002730000855550020161111194435010535444360059207468710450220711112112520105920003600558000035344102410011158653581059200036000600000283945022100111140256502815444360001100003029450221011115459733080644443600020000028984502210111115679420806444436000200000548145022101111611985408064444360019200006544350271611118427737080644443600656000088764102416111123329210806444436007990000904062515161111314448908064444360084200005381430231611115923263))
 (.node 1 (.leaf 8064444360084400005648450221611115847524080644443600766000056644752116111182202610806444436003070000540845022161111807179708064444360020700005564450221611115476129080644443600486000084384502216111154454630806444436007420000851143023161111770859609722444360002500005788450221611115781349097224443600024000057244502216111180245210972244436001000000848845022161111579012410058444360019800005864450221611115811856100584443600450000057244502216111158971800975344436007710000900470012161111210509609841444360077100008419700121611112766531098414443600192000085955751716111117926981001044436004130000862255018161111194499510010444360030700005251450221611112270413)
 (.leaf 6814444360071400008853450221011111833629068144443600283000048164302310111180569331059237236004420215481643023101111145324910592244360002100004257450221201119155881105922443600400000045774502212011167262970817844436004000215474445022120111230017808095444360063918005319430231201115687598083734443600682207356484502212011164324780821744436000080000425745022050111856470706844444360000803394257450220501118701866068444443600008000045774502205011163820830684444436000040493440845022050111667280406844444360000000822835450220501112654735105924443600221000029444502205011118431070526344436007710493457745022050111562497707569444360000000004408450220501115761197)))
 (.node 2 (.node 1 (.leaf 8050444360000000004744450220501116014628081314443600055099153384502205011160148440827444436000101298507845022050111591862504473444360098406255386390250501115600497054974443600540000045774502201011172879030520544436006890000313945022010111869905710592170360068200006966450220101112531574105921703600682000039524502201011125634321059217036006861193410945022011111243235207234444360079902135381430231011115911023075664443600540000054084502210111180688820756644436003340000761345022101111585347508691444360042300008098450221011115382845081234443600232000076134502210111156131161059200036002320000482745022101111612731410592000360022600006542450221011115831229)
 (.leaf 10592000360022100006426450221011115722857078264443600221000065424502210111180320870782644436004230213629845022101111210411306708444360080700006298450221001115638905105920193600824000058654502210011114733911059207236006690000422950020100111187687310592178360063400003080500200101112060157105920003600704350177815002010011120170971059262636008070621891450020100111299098510592075360083502138899450221201112261767105924043600824062173584502212011119171971059217736007820621729745022140111564671910592000360080708717495450221401112445733105923483600742138275234502214011184528731059234836008243053776945022120111200537110592340360082433567795450221201112311346))
 (.node 1 (.leaf 10592340360068226627820450221201116006037105923403600682301778894502212011180285921059225836006823117782045022120111838675610592258360068222277820450221201118362519105924443600682305377954502212011158804081059244436006821790766045022120111820542110592444360068236067630450221401118102517051254443600742410467374502214011124490231059244436008583356616745022140111247046710592444360083626626058450220401112356184105924443600719341260714502212011161769900797244436007144182892557517140111595155408861444360064200008562475210501115718325105921573600517000047444502208011125153661059238136007710000645747521080111587395210592157360079300005980475210901117993912)
 (.leaf 10592157360080700004139500201001111791278105921883600828000042805002008011115037031059218836008280000738643023120111169381810592324360082800007135450220801115940359084664443600828000073034502207111159219170710144436008280000713545022071111262140109042444360059000007885410241211115490899096074443600594000082624102412111153646710587144436008240213399352519080111231812906028444360082400006587525190811115740187090374443600625000077754502212011155433400525544436008280000575643023050111553784508092444360079300005653410241401112716944105924443600824033787114102407111153061091001744436007770213871141024081111598659209529444360081911938668410240811115693799))))
 (.node 4 (.node 2 (.node 1 (.leaf 6644444360082400006966410240801117245342059324443600689033760683902505011156800150644844436006890213425741024120111588485808117444360068200004310390251201112136513082854443600790000068853902512011124037850858044436006860000754239025121111492611806468444360068900004310390250811115963728062344443600689000046233902505111134188720738044436001980000389443023101111499987307458444360070903377710430230811115964015063304443600704033746624502208011160709810856244436006560000802045022120111600423407086444360068915574408450221201111971739068134443600689000076134502212111118526770681344436006860000425745022101111218811706813444360056700004577450221011118060111)
 (.leaf 9914444360019800004408450221011111824357092354443600384000047374302310011119769430923544436002830000425745022101111177261509235444360042300003811450221011112153214092354443600431000033044502210011117505190553844436003410000395245022100111777348210592386360028300003656450221001111702966105923863600221000034894502210011154419601059235236003070000381145022100111207302710592352360023233564109450221001112075313066304443600033108541094502210011117371551059235236000270000267343023140111196580410592352360062111938325410240711116130442105924443600682288166104502207111157740411022744436005170000877162515071111244299710592444360034100008923625150711115835976))
 (.node 1 (.leaf 10592444360036600008876625151011115833850103524443600621000088636751316111128512691037744436002320000855760016161111656267110592444360061700008763450220711118116198105924443600766000088916251516111164311021037744436007090000896970012161111298440210592444360000600000000000030711111189339105924443600006000000000000307111155052601059244436000060000000000003071111590290810592444360000600000000000031611118017604105920003600558000090346751316111124986021059244436003660740902052519161111281868410592000360074222276365410240711111904156105920003600517062160494302307111181274941059200036002830000642645022071111806346410160444360068230538614450221211116138265)
 (.leaf 10592000360062722274663430231011111625389105920003600293098338734302310011154411301059200036000690000258545022100111161440510592000360011600001785450221011117647003080644443600009000018394502210111156669810806444436000030000250945022101111768772308064444360000600003584450221011118315569080644443600005000046384502210111160767160851544436000140000536845022161111184390108515444360002000005958450221611112043255080644443600011000062984502216111117646410806444436007930000901462515161111189646208064444360079900008992625151611119178637080644443600771000090237001216111123428180972244436006640000876345022161111178064809753444360066400008642675131611112845321)))
 (.node 2 (.node 1 (.leaf 9821444360023200008503575171611112675152103264443600621000085086751316111159582331001044436005170000591460016161111194775710010444360055800008438450221611115814022100104443600517000088364502216111183557050681444436007990000851560016101111606476206814444360082800008532550181011115765408068144443600819000086496001610111157338280681444436008350000884657517101111218745106814444360001500004827450221011112167937079514443600015000078384502210111158654691059247936005171290796741024101111569570010592372360002000004984450221011117975491000004443600221033765424502212111186737650000044436002210000595845022121111617839700000444360023200007838450221211116136312)
 (.leaf 8178444360010002134744450221201112486887089584443600890000059634102412111156571860795844436000140000425745022120111253799308217444360001403374662450221401113069595068624443600018000036564502205011190304340686244436000180000348945022050111657523306862444360000000002835450220501112408435105924443600170000033044502205011157420670695544436000690337348945022050111593332806444444360013600004257450220501115611633074354443600486000048274502212011156295520498444436005510000283545022050111572739807911444360000603374408450220501112255123052254443600971000045594102405011177362900550544436008250000481643023050111593854405093444360068400004174450220101116588635))
 (.node 1 (.leaf 5780444360057600005565450220101116314328057614443600790000031394502208011188863451059217036006860000313945022010111239518110592170360062100004827450221001112104605075664443600442000084384502216111122176290785544436002320000498445022101111628490808657444360022100006813450221011115275070078104443600221000061674502210111179556630782644436002320000642645022071111596698807826444360030700006641450221611118210738080834443600400000067894302310111159450250808344436006130080629845022101111562734606708444360082510796966450221001115631436067084443600824048458654502210011178458861059201936008250616696645022100111798043010592019360083502126144450221011112061432)
 (.leaf 7896444360080700006144450221011115678987078964443600825000071354502210011153843891059217836006270000308050020100111159764910592000360063400002763500201001112054179105920883600835000087104502210111157366421059262636008350000885345022101111318177210592075360083600007523450221201111680431105924043600824073873584502212011180116471059207536008240979741745022120111799084710592177360082415517550450221201112106691105920003600790107976024502214011124707741059234836007140979752345022140111277641410592348360082433347795450221201112035347105921383600819118478444502212011179648831059234036007901778774245022120111233706610592340360068208657550450221201118261341)))))))
 (.node 32 (.node 16 (.node 8 (.node 4 (.node 2 (.node 1 (.leaf 10592249360068224977871450221201116223478105924443600682210876874502212011164063141059244436006822219766045022120111588435610592444360068234567769450221201118211915105924443600686388175744502212011161380831059244436008362318711645022140111871698810592444360085800807358450220401116548998051254443600858048467374502204011127385170512544436008580000605845022040111898464808792444360078224976997450221401116448308087924443600682137856484502214011162941681059244436006823575688445022140111240112509199444360071439807598500201401118165277079554443600689388989936001605011176114210685944436008373799898755018050111520538606866444360064600002944450220701113325568)
 (.leaf 7733444360070400008082525190801111624154105920003600837048486204102412111158516741059200036008280080829243023121111568638910592324360082800008080430231211116031027075964443600828000080984502208111143012490775144436008280738738643023121111594372408575444360082800007997430231211115714109091574443600828000082624102412111155757250845944436008280000832541024081111515361708121444360087000008241450221211111860498059464443600824000041525251908011181981480577944436008240000429352519081111570969806445444360041100005653410240511116034114052794443600742000044004102405011157972730779644436008070000696645022120111202186910592444360036000008711410240811116017083))
 (.node 1 (.leaf 8668444360082400008441410240811117405769062954443600689000070363902505011158264380690444436004130616552539025050111288602306569444360063900004257410240501116046969082434443600613073843713702612111119585720680644436006890000667739025081111463723907250444360068900007113390250811115135498086414443600601000050003902512111160534460660444436006820000425745022080111196313607288444360066900004408450220801112111468068134443600664398247174102410111119561900991444436006391463473743023101111809773509914444360050500004891430231001112016265092354443600576000044084502210111117120560991444436006230000336541024100111224270203285444360061703364490430231001111991582)
 (.leaf 10592352360046700004577450221001118428227105923873600170000041094502210011121754681059238736006010484457745022100111219103110592352360022600004257450221011112067907105923523600048137838094302310111155217591059235236000480080365645022100111783877810592352360002802123087430231001117911853105923523600032137831463902512011119490311059244436008251284879941024071111590381810592444360071900008870475211611112047583103774443600686146383875501816111180560651037744436005760000792555018071111817886810377444360077700009026550181611114789287105924443600777000090337001216111118194471059200036006130000902160016161111220027510592000360063407386997450220711112143328)))
 (.node 2 (.node 1 (.leaf 10592000360047715515221450221011111866573101604443600028137847444502210111154751181016044436001700336462043023101111512203810592000360016411844217430231011115620424105920003600026107932474302310111154992481059200036000570000268643023101111782372610592000360017606162373430231011115408458105920003600113171026444502210011153221211059200036000690000253645022100111523084400000575360001700002949450221011111512173080644443600022000022604502210111120698210806444436007710000902370012161111202000008064444360077100008608700121611111708275080644443600283000078055251916111158262580806444436001360000788755018161111569786708064444360013600008283500201611115648400)
 (.leaf 8064444360005700005368450221611115607771080644443600024000052044502216111154631960806444436000280000471645022161111559884409722444360001300004232450221611117912236097224443600144107952944502216111178775320975344436001920000557055018161111825807909753444360048600005640625151611118939488088284443600273000080586001616111181847540882844436004860000790062515161111782780608828444360077100007304700121611118209094102334443600664000081906751316111124460901032644436002830000872647521161111207147110592444360022100008763450221611116136848104914443600400000085284502216111123379530681444436002470000848845022101111238560810148444360042300008614450221011115991614))
 (.node 1 (.leaf 9008444360052800008614450221011116156464090084443600799008086005002010111183599510891144436008190000858455018101111617308306814444360079900808356600161011117621993068144443600835008080204502210111150479890681444436008350080642645022101111810507706814444360011600005865450221011111780133105923723600000000062984502210111185330981059237236002730336566245022101111193875800000444360020700003544450221211118692737000004443600032000047444502206111163397960000044436006643041881845022120111573927300000444360062309798614450221201116152231000004443600779086563994502212011158084160832244436007790000693945022121111450847908880444360000600005173450221201112503555)
 (.leaf 8702444360018300005408450221201115808988086004443600656021257884502212011158082100772444436006270080517345022120111527450005126444360000000003544450220501112719249068574443600104086546624502205011159437040722144436000270000395245022050111256568106334444360057610795857430230501116182465068704443600014021245164502204011161011790541644436005810000420745022050111595368906361444360054003346966450220101116444951054874443600704097161444502201011187723970825744436008070000395245022080111853286808257444360068904798710450221211116353520105921703600656117965424502208011124177661059217036006820000330445022010111850352707566444360068200004257450220101118177577))))
 (.node 4 (.node 2 (.node 1 (.leaf 7566444360042312794577450221001112381601077504443600257000047444502210111151062620812344436002320000482745022101111586599608044444360023200004904450221011115731339084304443600221000065424502210111157044460789844436002210000616745022101111571458707810444360022100795440450221011115685164081604443600221000059584502210111122117501059227936008280479586545022101111208311310592019360080700005251450221011115869801105921783600819000073924502210111158509651059217836007040000609950020100111183903610592178360069800004944500201001115781693105921783600634007926025002010011177561651059200036006340334308050020100111572468810592000360068600004595500201001112136914)
 (.leaf 10592000360076603348490550181001115606009105920003600790000085394752110011152709051059200036006860079872647521101111822651810592000360080300008833500201011112233133105926263600835007988724502210111125719551059200036007790479881845022100111831619610592000360082500798818450221001118416759105920003600835007988014502210011180882651059200036008350479871045022100111209856910592000360083507338614450221001112015187105920003600779170275744502214011124741841059200036007420733741745022140111236518710592000360077724507742450221201112037950105921383600819221077184502212011157565811059234036007992358771845022120111833207910592249360068221026997450220401118690794))
 (.node 1 (.leaf 10592444360068213707718450221201116190624105924443600719137071164502214011123494021059244436008580479693945022040111630005810592444360085804796813450220401113044716087924443600858007960584502204011183607380879244436008492043699745022040111254895908950444360068242157252475211401118510515089504443600824191890205251914011183581280938544436008462102900850020140111529309807578444360077126479016550180501115915385068764443600646000029444502207011133255680744344436007990211804047521081111590354508735444360069800005612500200801118279279105921583600790000052764752109011182914561059215736008240479544850020090111199230010592158360070900006298450220711115905268)
 (.leaf 7257444360082800007838450220811113954189074874443600828000080204502208111137999170921244436008280000841643023121111515231909498444360082800008441410241211115135410066704443600824000065075251908111157278100721944436008280334648350020121111244041106505444360047200005760410240511115734635048444443600835007938525251905011155102130692344436008280079396347521050111199611907092444360068900007542390250501118595580084524443600072000069463702608011164763260850844436001700000703639025120111602923208243444360070410726068390251201118030556082434443600486097178543502712111157122390843344436002930733694637026121111611355505682444360064300003905390250511115061378)))
 (.node 2 (.node 1 (.leaf 8176444360002800006384350270511113325568064734443600904000042574102412111155895930784244436001480479430037026081111578949307128444360021500794408450220811112128870105923163600601000038114502210011119723441059231636007040000677645022100111825496110592316360071402114827450221011116001726068134443600771000078384502210111158183030681344436007420334498445022101111226192906813444360066400007681410241011118140656084244443600664000049464102410111180489280991444436006640000511841024101111167633409914444360066400004946410241011112121363073954443600664000046013702610111180777831059200036006640000452537026101111791698710592402360059200003849370261011111907901)
 (.leaf 10592402360057600002906370261001115713464105924023600549000026163702610011156999121059240236003840000358943023100111200170510592387360065600004120410241001118238555064224443600643000038114502210011158296390642244436002930000440845022100111823796410592352360007200005241390251001115688737105764443600423073375423902512111122253881059244436007420479670050020161111507149310377444360060100008709700121611112568835103774443600639000088456501407111164344411037744436007710000903770012161111334883210592444360077100009033700121611113150450105920003600643235888724502207111123370021059200036004773309426439025100111204147500000544360000900002422450221001111824521))
 (.node 1 (.leaf 556360013400002470430231001115377566000005753600005000015624502210011117053960806444436000000000185945022161111822586308064444360000000002395450221611117739168080644443600003000019444502216111119241410806444436007710000901170012161111808766408064444360077100008948700121611111904357080644443600777000087097001216111128651610806444436002570000843645022161111579237208064444360000200004879450221611115216269080644443600000000043764502216111156464960806444436000190000422845022161111560858108064444360006000004328575171611115401312080644443600033000046675751716111154390240806444436000250000483057517161111571882808064444360001500004616500201611115576656)
 (.leaf 9764444360002800003410430231611115752533069154443600116000026294102416111157425330691544436000690000433243023161111529224206915444360001300003800450221611117889645080644443600003000054844502216111115435570806444436000210000362545022161111526038008455444360001700002443450221011117868809084554443600008000029954502210111157659450845544436000280000662345022161111582443708455444360007200008040475211611112011974096164443600232000085435751716111119390650961644436004500000564062515161111576694610107444360058500006171475211611112587867104914443600592000088184502216111184822161049144436000570000852845022161111596173610491444360003307337613450221611116104773)))))
 (.node 8 (.node 4 (.node 2 (.node 1 (.leaf 6611444360002600798614450221011112399424089114443600613000082523702610111129882030891144436007900000861862515101111234194006814444360082500007613450221011115423883068144443600384000058414102410111122849891059237236001130000761345022101111238168000000444360061700003466390251001112091108000004443600366021135344102410011125592740000044436001860211595845022121111284736900000444360093003348728410241201115884762088844443600779000072354502210111147573710854144436006980852699745022121111565698708791444360077900005930450221201115063408078794443600606000051734502212011157668460774844436008410000540845022120111577242109739444360062702116270450221201115530372)
 (.leaf 5126444360000000003876450220501113300534067294443600192061358654502205011160280090800844436008240000556445022120111538983008640444360001000004984450220501112086461072214443600013007942574502205011184662730592644436002830334451645022050111582134506618444360054000007392450220101117074329058164443600656000036564502208011164271031059217036006820000365645022010111269284007566444360054010683811450221001118139801081224443600226000048274502216111155991940873344436002320000490445022071111550015910592000360023200005865450221011115848505080444443600232000045774502210111158142030823844436002320000490445022101111572880808186444360022100005338450221011115786703))
 (.node 1 (.leaf 8196444360022100006058450221011115688261080324443600221000050784502210111158645661059200036005920000739245022071111812225310592279360051700007731450220711112234299105925153600634060980204502210111122838551059226336006640000283750020100111512303010592263360068600785444500201001117657401105920003600682020947644752110111156782781059200036006270209428050020100111580854610592000360062137138118475211001115415806105920003600549000086654502210011156796961059262636004420000871045022101111566196310592626360079000788884475211011112583165105920753600836060974954502210011153635181059207536008360474729745022100111777531710592231360082413627495450221001112040842)
 (.leaf 10592231360082440057417450221401115885217105922313600828297374954502214011180404471059225736008191450752345022140111213862810592138360079032007687450221201116010693105924443600807084777184502212011184640811059244436008071450774245022120111576857510592249360084913627574450221401112336300105924443600858000061674502204011189290661059244436008580000595845022040111919580505125444360085807305662450220401116673715051254443600858047452214502204011164798770879244436008560078451645022040111821689108792444360083507306058450220401113020284089084443600682106859304502214011159675040859244436006824143888152519140111824138408592444360082408479009525191401118272101)))
 (.node 2 (.node 1 (.leaf 9961444360083918339014500201401116608907057744443600582000029444502208011133255680617044436003870000330445022080111332556808735444360047706095614430231211112281392105921583600779047468344752112111119943791059215836006980209619447521090111262370810592158360082509667116450221211112630638105920003600793000082924302307111182795741059232436008070000793445022071111829241810592000360083209668174450221211115985440105920003600828020979344502207111158279590867444436008250609739245022071111600325909480444360082404747210430230711116108761087584443600803000080804302312111155274720787144436008280474824145022081111425369807456444360054700006507525190811116077656)
 (.leaf 6328444360082500006120525190811116525888073334443600526000063875002008111160021240826844436002450000639339025121111479500108481444360034400006523390251211114770550058044443600539000039404102405111149063300640144436005210000534641024051111509378007080444360068200006202330280811115106593062304443600790007844904302308011160310040819544436007190078773145022120111488252309687444360061700008056370261211114944988085554443600028007866533502708011153966570656944436005050000404839025080111223434607233444360035702094921390250801112427171074844443600431000068853902508111156444640591644436006890000346639025081111601120207924444360034100006946370260811115546738))
 (.node 1 (.leaf 8714444360002800006074350271011115818418075514443600028000034963502708111137227020828044436000280333689143023081111610431810592089360066402097496450221211112024187105920173600742000073034502210011181055700780744436007090000773145022101111253113209914444360063417634816430231011112455810073954443600528000071873902510111122631751059200036006640000665335027101111204403110592387360047700005841410241001112390245064224443600585000048274502210011123100610642244436003660000457745022100111210035910592352360016400004257450221001112358750105923523600072000033044502210111118408330820144436001040000381145022100111203074910592444360071400008419700120711113048764)
 (.leaf 10377444360071400008204700120711118351819103774443600164117280375751707111161078401037744436001570474838755018071111594024710377444360062700008961650141011118579055105924443600689000089836501416111160991651059244436007710000904170012161111260498410592000360040019057299430230711112276467105920003600113020940424302310011179366381059200036000130000230745022100111574480010592000360035733883087430231001111755772000005033600617096624783902510011179535630000055636001160000233843023100111178027400000499360000000001613450221501112200625000004993600000000016954502216011177331920318044436000000000258245022161111586343503180444360000000001617450221611117995167))))
 (.node 4 (.node 2 (.node 1 (.leaf 8064444360000000001713450221611111604371080644443600027000081354502216111160033240806444436006270000897362515161111804395508064444360000000003264450221611112413499074334443600000000043414502216111117820400914344436000090000783845022161111846580309143444360010400004904450221611116019702097644443600307000085484302316111125381400806444436000000000375545022101111186134008064444360000200003440450221001115437891080644443600015000028524502210011178549830845544436000200000411545022101111174581008455444360002000003103450221011117787687084554443600000000030524502210111119042510961644436000210209786547521161111199185410233444360038400008898475211611115731703)
 (.leaf 10107444360066900008957450221611118491529101074443600013033376134502216111126056630661144436008280078853839025071111256059106611444360011300008488450221011115848840066114443600283000087634502210111181590790915044436007990000859643023101111271333306814444360078200008983650141011118058684068144443600779000089606751310111158812790681444436008240078788541024101111554979506814444360077100784997410241011112164455068144443600505000044633902510011177552220000044436002930000272141024120111221510100000444360091600008814410241211112652188078314443600779190566414502212111149296410834344436007793823693945022101111572864208191444360015700005440450221201113042828))
 (.node 1 (.leaf 8034444360001000004744450220501119198234075264443600000073036564502205011167042321059244436000240333395245022050111641599005189444360077900004257450220501115780678063344443600100047445594102405011181218020609344436007660000627143023050111559180306251444360083733594891430230801116169544065774443600779358954774502208111159915440825744436006820000507845022090111301413010592273360066900002810450221001112334140075664443600334000034894502210111159051150734244436002210000440845022101111664415508944444360022100005408450220711115673966089444443600226000049044502207111157782221059206636002210000490445022101111552704108083444360080303314662450221011115956239)
 (.leaf 10592000360081900004662450221011112604473105922793600576000075214752110111124031201059217836007040000716850020101111210887710592263360074202086438475211001115546596105922633600682000041805002010011117246091059203136006230000395450020101111810308710592000360082402088915475211011112901656105922293600835213477184502210011119511771059223136008240958752345022100111256562010592444360080713537718450221201115858373105924443600807208576304502212011182585351059244436006891262757445022140111586564110592340360068208446997450221401118549935105924443600689160472354502214011189516141059244436008280468642645022040111297723210592444360085800005865450220401113673626)))
 (.node 2 (.node 1 (.leaf 4397444360082502084744450220401116588927096044443600824000049744502204011163760710960444436008281525605845022040111627096908792444360071433156737450221401118683282089084443600682233658644502214011126336770884244436007660000892950020140111510409809775444360087028269018475211401116040584100694443600896095890064502214011160836180688144436006460000294445022070111332556805773444360058200002944450220801113325568072364443600689000080586001608111157156001059215836007790000664145022121111283325010592158360079002086737450221211118171660105921193600799007763885251912111159193261059211936008370331494450020081111619590710592119360081900005865450220711112535225)
 (.leaf 10592000360082800006144450220711112649145101044443600828060483254102407111151089051005644436003140000822339025121111492907107657444360066409586393390251211114477821075924443600689135363933902512111153549320813744436006890000711339025121111455224507328444360043300004706390251211115339347050644443600824000039404102405111149888560521544436008390468487543023051111482380605204444360082517564269475210511115455868057324443600828007771524752105111152046500883944436008240000843252519120111494518009141444360002800006931350271211114121617077824443600028000047183502708111148610170735144436004001063639339025080111565089106974444360024700774822370260811115576555))
 (.node 1 (.leaf 7542444360014400005416370260811115730210080154443600442000068853902512111160777790718944436003573111431039025081111585647608020444360002800004031350270811115677464079154443600028000039013502708111152089090839244436000280000403135027101111419118408581444360002800774623390250811116408971087424443600055007776134502208111156549920734644436006170844440845022080111210021210592089360066403313489450221211115599675105920893600621020842574502212111182823201059201736006690000739245022101111238191206957444360064302085865450221001112318577083294443600643020879144302310011157806020681344436006690000799743023101111625703108424444360057600008487410240711116146585)
 (.leaf 8424444360061700008697410240711115901158084244443600585000052145002010111126259810759444436007990000494641024101111583729207395444360028300003589430231001116157030043974443600257033145594102410011125223801059200036004770000407639025101111574040710592000360030718264997410241001115790226004204443600341000047174102410011123781910042044436003340000745441024100111606793100420444360020700006543410241001115897878004204443600357000038764502210011123995420642244436002320000381145022100111218504010592221360018300003811450221001115651031071214443600247060470504302310111118046520712144436005760208760837026101111776947210592352360022600003365410241001115462101))))))
 (.node 16 (.node 8 (.node 4 (.node 2 (.node 1 (.leaf 10592352360045009584921390251011117808071073544443600176020848164302305011157303901059244436005400000893665014161111336210309048444360002606046966450221011112274303103774443600450060484635002010111161158261059244436007710000903770012161111605601810592000360060500008847550180711112678602105921063600714000085284502207111184474881059200036001160000761345022071111582182610592000360000300006509450220711118030744105920003600221106355654502210111120417910000050336005851756712541024071111586601600000499360063400006144450221001115793131043814443600000000021764502216111152445940806444436000000000196245022161111792046808064444360000000002298450221611115303254)
 (.leaf 8064444360000000003149450221611115764609080644443600116000074154102416111160354610806444436002470000866545022161111595989208064444360005700004426450221611116055198080644443600017000030714502216111155623660806444436000000000219045022161111575422408064444360000000002500450221611115798870091434443600033000081744502216111130486410976444436002320000871045022161111640210308584444360002000003164450221611111941526069154443600000000036264502216111119207950519244436000000000408045022100111200218905734444360000400006298450221001115727634057344443600011000043454502210011152784360661144436000160000388145022101111772309408455444360000702083911450221011114996773))
 (.node 1 (.leaf 8455444360021500005126450221011115214305101074443600183000058234502210111121629281010744436004420000885345022161111251454210107444360064300008614450221611113161591066114443600232000082414502207111127122410661144436006340000866545022101111273886810244444360011600008614450221011112971223068144443600824000088955251910111123218990681444436007710000533939025101111192109806814444360082412627567410241211115803282000004443600898046887994102412111120807470000044436009800000884641024161111518295600000444360070600007418450221201115387772082184443600824000069394502212011152007620804144436006210726664145022120111626430208191444360033428265251450221201116375615)
 (.leaf 7526444360023200004572430231401117010702105924443600025000033044502205011163971640526744436008580000490445022050111572872107786444360000003314257450220501115077346076584443600000000041094502205011150434640640344436000200000348945022050111247341607775444360000003314662450220501116062374067834443600699000061154102405011157526750540344436008372618465143023011111565572607494444360076642065724450220811116214522082574443600682368079344502210111161977791059227336006820000294445022010111269912205814444360064300002898450221001118185031067914443600357000045774502210111186333460679144436002210000395245022101111573160208116444360022100004744450220711115382604)))
 (.node 2 (.node 1 (.leaf 8947444360022100006542450220711115184840081604443600528000056484502210111156923500808344436006050207540845022101111583455808083444360079902074577450221001118116488105920063600793020777314502210111156442101059227936006890000696645022101111215242110592279360052800007135450220711115739537105922793600623000049744502207111157695171059227936007790207813750020101111542528010592178360063400005826500201001112121705105920043600634000025695002010011156467601059203136006340000276350020100111212002410592000360062700006818500201001112027879105926263600793000085284502210111179396741059200036007990840848845022101111801159310592626360082807238957450221201118635938)
 (.leaf 10592000360081915978944450221201112977402105921873600837105776024502210011157023811059214636008360600741745022100111814406810592146360082409527550450221001115811896105922313600824168175504502210011179119691059223136006891597760245022140111571623710592231360056709527297450221401116718554105923193600669095271164502214011167142731059244436006821597717445022140111307275010592444360068215185251450220401116403601105924443600689125769974502214011130554471059244436007712823752345022140111289167410592444360068200007057450221401118672092105924443600719020770574502214011134730611059244436008280000629845022040111902264510592444360085800764283450220401119167681))
 (.node 1 (.leaf 10592444360085627935440450220401116711367090544443600549399989674502214011183372850849844436006980000895745022050111612835410453444360087800009000450221401115348140105924443600825060090064502214011158489671059244436008960000900045022120111534078205663444360045200002979390250511113325568056604443600452000029793902505111133255680812444436002730462671252519081111541645508909444360035703306737450221211115898789084644443600621000062984502209011160925540739644436008240076410945022080111570930810592119360079303306790410241211112842647105921193600825046256534102412111161224250867444436008280000667043023071111227419509909444360082810578192410240711115145860)
 (.leaf 8571444360036600007496450221011115916494096304443600689060082233902512111146709040810544436007140000541637026121111238639907599444360062700764822370261211118022830067884443600669000046233902512111152227660758944436008190723524139025121111856038405181444360091514333757430230811115617055064164443600824000053215251912111150577780689144436008240000658752519121111568712508441444360002800766074350270811115257479072684443600349007639053902508111129090410667544436003570723492139025081111579079407102444360025702074822370260811115370509075574443600334365038493702612111154390910786644436000280000349635027101111524387207075444360002800002848350270811113991460))))
 (.node 4 (.node 2 (.node 1 (.leaf 7758444360002800003337350271211114955080068534443600028000025723502708111137168480680144436000280000257235027081111490010110592017360044208405865450220711112035353069114443600623000071354502210111158822070695744436003490723556545022100111605721206621444360022600005865450221001116249015079214443600709000078384502210111181751540792144436007192846395245022101111281215608489444360002700003304450221011112525297073954443600027000024074502210011159686180439744436001920000347943023100111289631510592000360032200005029410241001112295258105920003600627095244223502712111127291970042044436004860000454539025100111250842600420444360002800002407450221001112592522)
 (.leaf 7121444360017600002885430231011111872428071214443600528000027123702610111122154690698344436004000000371237026101111566141407121444360043100003534410241011112070295069834443600357000030874302310111157716630869444436002150000282641024100111261995710592444360071900008306310291611116111853090484443600055000048164302307111122280331037744436001863391603743023101111576333310377444360048600007590430230711115901492105924443600709340789965251907111182416401059244436004230207897265014071111622584710592106360034107237567410240711112451702105921063600576181971254102407111157868451059210636008493530808435027121111820038600000499360070408407613450220711115968436))
 (.node 1 (.leaf 499360000000003053450221001112194949000006263600001000017074502216111123856120000062636000000000247445022161111216212008064444360077100008969700121611118047508080644443600000000028694502216111120021570552144436000000000251045022161111235368105521444360000000003411450221611111963245055214443600002000024234502216111156252820552144436000170000593545022161111819137109143444360005700007451450221611115925105104454443600176000083174502216111167972181044544436002320000871045022161111679737006894444360042300008620410241611113378642085844443600192000082924302316111184795870716144436000270000405245022101111204820707175444360000500003780450221011111963806)
 (.leaf 5734444360010400004700450221001115447122101074443600000000032104502210011177876801010744436000000000339345022101111800254710107444360002610578099450221011115757169101074443600283000087814502216111161109371010744436005760207871045022161111631675810107444360040000008573450221611116205968101074443600283020785734502216111186571100661144436003220000848845022101111248552209942444360010400768488450221011112711142068144443600828000073253702610111153524040681444436008280000735339025101111187125906814444360065600004120410241011117936639068144443600689000034063702610111157395580681444436007900600584141024121111245029200000444360076611585339390251211118645771)))
 (.node 2 (.node 1 (.leaf 444360017000004744450221201112770331000004443600890000086974102412111128103960000044436008190000885345022121111592790400000444360055804625477450221211114914870000004443600501000050784502212011158683510889044436005920330705745022120111541014908948444360062100765864450221201115598333063974443600100000039524502205011156322610591244436006170000474445022050111436019908437444360000000004827450220501115418920061734443600686033048724102405011162993060598544436006984149466245022081111271948610592273360068200004744450220911113235646105922733600698151088534502210111131470861059227336006820000466245022090111879148510592273360064300002681450221001112763860)
 (.leaf 7434444360022100003963475210711115702280082734443600221000048474752107111154074760846944436002210000507845022071111578086408358444360022100004764475210711115567001091264443600221000067554752107111153871300821244436002210000607847521071111569077110592066360040000006098500200711115157201105920663600835007567764502207111125433611059206636007660000761345022101111577822210592279360028300007392450220711115518680105922793600621000075214752110011123533831059200436006340000308050020100111234477710592031360061700004944500201001113058897105920313600617000052395251910011125790361059200036006340718763947521100111219012110592000360066400008383450221011118271666))
 (.node 1 (.leaf 10592000360050503288781450221011113184067105921873600698032874384752110011124102951059218736008070941760245022120111591866810592187360083508347769450221201118545401105921463600832105175234502210011159199841059231736007092495760245022100111233792910592231360058515107417450221401115965935096044443600576346572974502214011162308171059231936006820075705745022140111923393910592319360068203286939450221401116762684105924443600682044969974502204011136454461059244436006820075533845022040111625881310592009360070400002310450220401116230462105920093600825245923104102414011129343241059244436007042007735845022140111851364210592444360077708346813450221401113303210)
 (.leaf 10592414360082808346542450220401116331313105924443600819020661674502204011163081961059244436008580000566245022040111943399110592444360085800004974450220401116541699105924443600853000047444502204011189009801059244436008390834497445022040111890612304397444360083619435221450220401118551742105923153600766302244084502204011133545320905444436006820206614345022140111271477608545444360089638009012450220501115039793105924443600682000090004502212011147346800569344436004520000297939025051111332556808206444360021600006712525190811115484703073444443600558007561674502208111155529510788444436001640206585743023081111619817709869444360005707185949430230901116255234)))))
 (.node 8 (.node 4 (.node 2 (.node 1 (.leaf 8651444360082427888488450221211112485304105921193600790044972473702612111186249731059211936008280834620341024121111233454610592119360082500003087430230711115692350105921193600819007531394502207111157431910765244436008030000556545022071111296767105001444360066400002835450220511115483643054904443600771000055654502205111176180450802844436007040000749645022100111537363407366444360071900006361430231211116303737087634443600567007577104302312111161444820838044436008070000724737026101111490433107522444360080700006543370261211116577071083574443600617007571873902512111133686780758944436007900718471741024121111284033006956444360050500005809390250801115420274)
 (.leaf 6861444360034103284822370260811118761282058784443600669000041873902508111164488190801044436000280000531435027081111594268207668444360002800003180350271011113325568077844443600028000033373502712111133255680828344436000280000390135027121111441260307339444360002800003180350270811114314277087554443600028000060743502712111133956400806944436000280206677645022081111462371407052444360013400004904450220811115889457105920173600164032845774502208011182907871059201736003340000272145022080111816665306316444360061300005251450221001118179724066814443600592000038114502210111183274920704044436006230000586545022101111273760907921444360019200004408450221001112813907))
 (.node 1 (.leaf 7921444360052800004559410241011115896765084894443600517000078854102407111184208250848944436000080000365645022101111282563806944444360000500003164450221001116022741043974443600627194367773702607111125600701059200036006640834722335027071111821429110592000360066400007300350270711116123811105920003600669000048593502712111183917101059200036005850000500039025121111589931510592000360042300007681410240711115971381105920003600400020673694102407111160722331059200036006390000435035027120111586297900420444360017600003952450221001112630261105922213600136000023074502210011158874830712144436001440000240745022100111794526907121444360066404497000350271011112253848)
 (.leaf 5626444360071412514505350270501115687346090484443600015000058654502207111125894780878744436001160000592041024071111794355509048444360006403286203410240711115822069090484443600064044963614302307111124262801037744436000060000650945022071111586105610377444360002005958317450220711115525443103774443600790206785913702607111159067551037744436007711510900470012071111838954610592444360006000008739575170711116578289105924443600072000089765501807111163294310000049936000570718713545022101111283371100000499360000004491904450221011117803112000006263600002000012464502216111177247130000049936000000000130145022161111205948700000626360000000002020450221611117828319)))
 (.node 2 (.node 1 (.leaf 8064444360000000002363450221611111930031080644443600000000013144502216111124560580806444436000000000418245022161111815799608064444360002800004261450221611118326200080644443600144000076534752116111186191590806444436003340000862255018161111872130308064444360003300008023450221611117930773080644443600015000051784502216111179447270806444436000050000391545022161111810043808064444360000000002152450221611112217079080644443600000000023304502216111157864300500844436000000000362045022161111273201905008444360000000003666450221611112074571063914443600000000027154502216111120247950637244436002210000482237026161111569040706372444360000800004827450221611115695498)
 (.leaf 6943444360000300003771450221011115271006057344443600790000059624302310111158198210461344436000570000544945022100111779179604613444360000000003803450221001117787936066114443600000000036524502210011178538541010744436000000075557645022100111546965206611444360000700006058450221011112812134066114443600183032879344502210111156541480661144436001040328817445022101111795711710592444360069800007496450221011115168132068144443600828000074964502210111176584940681444436008280000738643023101111797455906814444360082800007392450221001115368559068144443600828000073924502210011118145130681444436003660000544041024101111244959600000444360077904497285410241201115674716))
 (.node 1 (.leaf 444360074200005314350271211117891795000004443600686000035613702612111125858520000044436008440328899345022121111821869400000444360041300005564450221211115720267000004443600028000052514502212011161574150000044436001640000507845022120111597520600000444360017000005477450221201115898347000004443600055007554084502212011158117470000044436000260000601045022120111534302809025444360069600005723410241201115371592072664443600686167147974102405011125178851059244436000000000365645022050111368548906375444360014400003952450220501115873399057384443600265000031394502205011161827410628844436006820328487241024050111548269606734444360068200005201410240501115501232)
 (.leaf 6284444360019800003894430230501115310628070114443600257020649044502205011156993080645444436000000206283545022050111261371306145444360087026095319430230501115983123047874443600941206746233902505011160551020621444436007130000520939025050111615818506210444360083713277816430230511114601073075344443600779000071354502210111130637131059251936007090000812341024121111598583508536444360068200002495450220101112465694084694443600221000045475002007111185360620846944436002210000625452519071111568686408731444360022100006388525190711115242311105920663600771000044214752107111155704021059206636008280000688445022071111808828110592279360043100007613450220711112533929))))
 (.node 4 (.node 2 (.node 1 (.leaf 10592279360023200007838450220711112340703105924443600686000076134502207111122809011059200436006230000804047521101111245784210592031360063400006355500201001115839002105920313600605000045805002010011156898501059205536006340000430750020100111817297910592055360059200007885500201001118057415105920553600656104579534752110011157773411059200036008320000817445022100111338647710592513360079000008853450221011113209715105920003600782104577395251910011181770571059231736008240831749545022100111580902210592317360051717357174450221401112579280096044443600682032768134502214011164609710960444436006820000693945022140111631007810592444360068218757297450221401113767807)
 (.leaf 10592009360080322212310430231201116158326105920093600682132723104502212011128514341059244436006821582749545022120111328249310592444360068215827174450221401118564390105924143600682032769394502214011164139461059241436008280074474445022040111326988910592444360077708315440450220401113049981105923153600682032764264502204011139848940855844436006431327627045022050111317239208558444360090123618944450221401116297306056054443600971409790124502205011158805451024144436007940000901245022050111548500706209444360038700003304450220811113325568079664443600209000061674502208111155529510821444436001310000616745022081111590854308310444360011800006049430230811116033604))
 (.node 1 (.leaf 7504444360082403274042430231211113373064062764443600824000044904302312111129790060727044436008250000449043023071111503859606177444360082402052516450220711115218580073454443600714000035344102407111156172650883544436007140591720141024071111499401008153444360071400004400410240711115750444082054443600338000041204102407111159211060529944436007790000490445022051111482358905472444360077900003952450220811115482249064414443600779007436564502212111155025440844244436005670205505443023121111557364108082444360035734854559410241211115799915059454443600621000044084502208011154158290604844436005580074419143023081111706099306207444360063902053139450221201115554967)
 (.leaf 5782444360062300743811450221211115240128063094443600623000067904102412111158548720681244436006690000694637026080111627331909506444360060100008192410241211115426350096014443600807000081873702612111148524260767744436005760000763947521081111332556807546444360062200007639475210811113325568095164443600617000084384502212111157330460849944436007820591781643023121111553013109355444360082402058325410241211115693914074024443600689000071873902508111151165140658844436000280000237935027081111489084906927444360068900006677390250811115430454080914443600028000053143502708111161166150828744436000280000500235027101111411336407556444360002800003038350271011113751778)))
 (.node 2 (.node 1 (.leaf 8272444360002800005002350271011113558830085394443600028000055743502710111133255680620644436006430074389443023081111613892106424444360062300005565450220811115716293056294443600623000028354502208011160319630655144436001860000261545022081111628289106647444360022602054577450221001118117455066474443600341000038114502210011158097550667344436000180000305145022100111267858800000471360000400003421450221001112448564000004713600006000061444502210111160689000623944436000690000535841024100111575577907334444360011322713656450221201115599094074704443600613000037123702607111184986620962544436006170000450535027121111592597510592000360066900007967410240711112251153)
 (.leaf 10592000360060500008292430230711118459066105920003600643000085013902507111127918580042044436006980000805637026121111244034100420444360034100006543370261211115963496105922213600349000065434102412111157966231059222136000270000230745022100111272423710592221360023200003087430231001116314369071214443600207032741484102410111157118540698344436001920000262441024101111216509006983444360062105916677390251011117968893072084443600423000021594302310011160527400569444436006390000412041024050111521575807255444360061300004076390251211112249061090484443600257000053584102407111159102870878744436000600000728541024161111256927308787444360054000006777370260711112453919))
 (.node 1 (.leaf 10377444360006900004490430230711113168029103774443600024000051454302307111159312191037744436000190591788550020071111807807410377444360070900008924600160711115646274105924443600627000086557001207111158807531059210636001982933860050020071111608053210592107360051717358448475211611112488677105921063600341020583834502216111160826470244544436000000000255145022101111234896000000626360000000000897450221611111986462000004443600000000013374502215011121536710000044436000000000282845022161111204037608064444360000000001628450221611115197586080644443600000000012394502216111177136110806444436000000000093045022161111542922808064444360002700006163450221611118422992)
 (.leaf 8064444360029300007692550181611115942969080644443600000000034944502216111156732570806444436000000000352745022161111573735108064444360000000003362450221611115389388040074443600000000034684502216111155376500400744436000000000276945022161111575436404007444360000000002869450221611118173254050084443600000000029204502216111157878580500844436000000000275445022161111234659106894444360000000003061450221611111895047063724443600585000085553502716111158839920637244436001920000802045022161111302305606943444360002000004072450221011112299424077934443600028000077904502210111154602210573444436002570000538143023101111269754005734444360062100005421410241011112456578)))))))))))
 (.node 512 (.node 256 (.node 128 (.node 64 (.node 32 (.node 16 (.node 8 (.node 4 (.node 2 (.node 1 (.leaf 4613444360002700003824450221001115379772066114443600357000067374502210111154162110661144436000000074761345022071111806342506611444360006000747590430231011115754588105924443600057000073034502210111118703761059244436008280000730345022100111502942606814444360082803277496450221001112164962068144443600477000055253902510011121166730569744436007660000499837026051111586019600000444360038424126939450221211113005215000004443600803083185284502212011127388520000044436008710327863641024121111852160800000444360089600008763410241211116057225000004443600656000061504302312011159094930000044436000330000824145022120111572876300000444360069800006071450221201116307321)
 (.leaf 444360006900005648450221201115999814000004443600300000054084502212011157751690908344436006820000572341024120111389516508443444360070402055357410241201115747260105924443600028083144084502205011162500581059230336000210074474445022050111599992410592303360017602054577450220501118670431066564443600069000041094502205011164396610685044436006693733528141024050111574088105808444360003300742721450220501115698399105920433600232000029444502205011183328131059204336006980074365645022050111591084310592043360079330947386430230501115833162082494443600450044765194302305011181289090681844436006052780609039025050111612014805122444360082400002944450220801115871394))
 (.node 1 (.leaf 10592000360079300006790410240711112704304085364443600639020482523702612111129353990853644436006820446294445022100111295387908536444360061300002944450220711115789487072864443600221000041065002007111157892520846944436002210000528752519071111232065108750444360022139685048525190711115608004105920663600486000080204502207111126058981059200036007040000802045022071111777034410592279360079000007613450220711112507653105920043600413000084384502207111154205821059200436003340000838345022101111785164810592055360063900003836500201001115926614105926123600771000084484752110111158280301059261236007660325862647521101111315353210592513360079302048885450221011113567533)
 (.leaf 10592513360083505858853450221011118734062105926083600837032588364502210111124586951059200036008352854768647521120111242513210592317360051703257057450221401112877609105923173600528300770574502214011184029260960444436006130204664145022140111667430209604444360066909316298450221401116450758105924443600682071071164502214011136121661059200936006821656231045022140111276126110592395360055812412310450221401115508398105924143600782104064264502204011166036441059241436007190000654245022040111659465610592444360068631646298450221401113731452105924443600682338254404502204011185195560439744436006820073395245022040111916368810592444360068213215958450220401113458482)))
 (.node 2 (.node 1 (.leaf 10592444360066940575648450221401115869012105920933600682397159304502214011123475871059231436006823252607145022140111562113208526444360068223536071450220501118255563076294443601048071090174502212011166797090898944436008960446901245022050111389978007654444360071900006074350271211115849840066624443600719020459513702608111158614270787644436007790000586545022071111537102306900444360068200004904450220711118138202073734443600643044654564302312111124892550737344436006050325729943023071111280306907533444360060100007386430231211118193301075334443600605000074804302312111124463370774244436006170000636143023121111848691610592000360060500006037430231211112714753)
 (.leaf 10592000360057600007392450221211118156474090524443600517000074964502212111183986280988044436005400000831745022121111251314009820444360025100007012390251211115873100073894443600028000031803502708111133255680628744436006890000492139025081111428897406731444360068900006068390250811114845216080724443600028000036373502712111133255680783444436000400000390135027101111349043606222444360070400004921390250811115320935071124443600682020468853902508111147624580750844436000280000457745022100111603524005805444360035700002615450220801115930313063264443600221000028354502210011156122080771544436001040000457745022071111559404809043444360068200007713370261011116023543))
 (.node 1 (.leaf 9625444360062100007154350271211118530929096254443600709000085734502207111156390881059200036005490000843845022071111595689710592000360055800008526410241611115767310105920003600357000084164302316111155512931059200036006390000816239025161111252213410592000360060100738049410241611118040853105924443600592044683254102416111180216241059222136006010000835743023071111820989310592221360044207106790410240711112559779071214443600028000026154502210011184062000712144436001000000313945022100111248884706983444360050500006203410241011112396531087754443600664000071733702610111157039180877544436002830000636143023101111784465708775444360028304467681410241011118093229)
 (.leaf 6983444360002400002307450221001112219714070394443600183000032284302310011155030460756744436003220000343043023100111576844705500444360055807104120410240501115624145080224443600517044633654102405011158769290725544436006340000412041024100111268726209663444360022600007369410241611112622370096634443600613000071733702616111124132800878744436000280000748043023161111237400110377444360019200003757430231011112570047103774443600714000089347001207111161090451037744436007190000870970012071111645263010377444360071400008204700120711116062020105924443600698000082847001210111160414020000047036001000000739757517071111579027610592106360000000005865450221011115828961))))
 (.node 4 (.node 2 (.node 1 (.leaf 10592106360000000001830450221001112221411024454443600000000019514502216111155928910000062636000000000206245022160111561819600000444360000000001323450221611112058849000004443600000000027664502215011181249690806444436000000000231745022150111565927008064444360000000000930450221611115715640080644443600000000029664502216111180329230806444436000140000424845022161111544675908064444360001900003086450221611115161128080644443600000000014074502216111180600250806444436000000000172945022161111549455208064444360000000002423450221611115705215080644443600000000026444502216111184314190806444436000000000342145022161111571588308064444360000000002820450221611115978081)
 (.leaf 8064444360000000002869450221611112616639080644443600000000028694502216111161782450363144436000000000342145022161111852077503631444360000000002769450221611115897251036314443600000000036754502216111162395920368544436000000000367545022161111574317503576444360000000003527450221611112648195050084443600000000036754502216011128238020689444436000000000342145022161111783461006894444360000000003421450221601112359228068944443600000000032674502216011158215420637244436000000000189345022161111552360106372444360000000002188450221611115613481063724443600006000032604502216111154711100637244436000480000372445022161111560704106372444360006900003051450221611115693959))
 (.node 1 (.leaf 6372444360013400003703450221611115545705063724443600021000027684502210111123772830661144436000020000543545022101111231079106611444360001100007303450221011112210311066114443600004000071354502210111124076971059244436003410000739245022100111777664510592444360082800007303450221001111923662068144443600824000073924502210011119041360681444436007820000749645022051111238955806814444360061300736885390251211112407140000004443600771020464834102412111180538170000044436008751412879941024121111830016600000444360042300006884450221201115907372000004443600192082649844502212011158687080000044436000280710507845022120111594220100000444360006400004577450221201115924063)
 (.leaf 444360011600005173450221201115838455000004443600837141288364502212011130826910000044436000260000498445022120111520927010184444360068200006074410241201115048749080074443600283255548914302305011132862880800744436000000204544045022050111928017410592303360001500004257450220501113328259069054443600100000044084502205011160038740627244436006820000427233028050111435490506257444360068233034872410240501116320913054324443600247000029444502205011158129420647944436002152055457745022050111600971600000535360017610403656450220501118601512000005353600853165636564502205011159325341059204336007660585365645022050111299438109301444360097519867322410241201118021585)))
 (.node 2 (.node 1 (.leaf 5904444360082804444408450220811115794498105920003600682000069553102907111126726690853644436006820000389443023101111291456808654444360022107054944500200711115852771077644443600221000044214752107111157635000846944436002210000638852519071111251699008344444360022100004801525190711115536676105926073600558000048474752107111155501181059206636008350000741745022071111322692710592000360076600005338450220711113030438105920003600450000084884502207111182631381059200036006010000852845022071111820674110592000360079900008383450221011115702725105924443600782070583174502207111159301661059244436005400000848845022071111569996210592444360023200008488450220711118080731)
 (.leaf 10592000360025700008241450220711115809193105920003600431000045974752107111158534041059201636006131567656550020011111554935010592612360071400008779550181011118576388105920553600793000087104502210111128827771059262636008240202861445022101111264390410592065360082522027964450221001112605837105923173600621020261674502204011164664461059231736006640000586545022040111606647310592317360068200005221450220401116159318105924443600682000059584502204011136798521059200936007932044231043023120111602090610592009360065626592310450221401113031573105923953600517092723104502214011130866751059239536006822254729745022140111319921210592444360066929217235450221401118818169))
 (.node 1 (.leaf 10592414360070915676813450221401113228832105924443600682103345164502204011190549191059244436006821567616745022050111340723210592444360062132496071450221401112726064105920933600682310261734502214011126725381059231436006391922768745022140111846710703611444360106700009017450220501116305553043074443601112032490124502205011167726580742744436007771785705043023121111579914407869444360077900007392450221211116440616091304443600766178578533902507111159154600866444436006980821729943023071111285727310592000360084900004577450220711112850757105920003600853000052514502207111181812631059200036008320000696645022071111270431210592000360062700727976500200711112825457)
 (.leaf 9314444360061300008228525190711112758609093144443600400007279344502207111156814160931444436004310000749645022071111592743309314444360055800007480430230711118521063091894443600634000072854102407111132028261059200036006860000793445022071111262701310592000360028300007667500200711115856208097994443600477000073034502207111184173680979944436005280000793445022071111322489010592444360048300008743500200711115792078075704443600622000076394752108111133255680800044436006170000454539025121111642784608927444360061703245169390251211115724011074544443600138000049213902508111144712200876644436000280000607435027101111407830309373444360002803246858350270711115868791)))))
 (.node 8 (.node 4 (.node 2 (.node 1 (.leaf 7976444360002800005002350270811113325568071934443600704000070363902508111153344650896644436000270580721043023121111384695607278444360079007054110370261201115133121096254443600689000078533902512111132588151059244436002470000857345022161111840575110592221360027317174400410240701112800157105922213600100000025754302310011188273471049244436000570000251645022100111609015806983444360005500002835450221011112695933087754443600192413569664102410111155350790877544436001982691257839025100111584918407928444360018300002323410241001115957201079284443600021000038114502210111183494220725544436000550444272145022101111585333309663444360001700004109450221611112504440)
 (.leaf 9663444360046700007454410241611112402795087874443600164000073864302316111155862330878744436001920000510247521161111580691608787444360011600004462390251611115470868087874443600026000069664102407111155553620878744436001160000718739025071111570368708787444360025700007353390250711112375752103774443600008000074964502207111157817241037744436000220000490445022071111574159210377444360019200007386430230711112835758103774443600742000081736501407111128980901037744436002830000752147521071111225736610592106360019800007210430230711115707837105921063600192103366704302307111157615321059210636001640444586545022071111574163210592106360023200005865450221011118323497))
 (.node 1 (.leaf 10592106360016409275565450220711115828343105921073600069000049234752107111158716430000047036000640000561350020101111834117710592000360002600004269475211011118644807105920003600000000025514502210011122525041059210636000000000215245022100111541254610592339360000000001851450221001115157241024454443600000000017504502216011150638590000062636000130000183945022100111542165600000444360000000001446450221001118099222000004443600000000017144502210011179006830000044436001360000170545022101111526216100000444360040000002143450221011115216533000004443600000000028304502215011130374210806444436000000000254445022150111816600608064444360000000002667450221611112521492)
 (.leaf 8064444360000000003636450221611118506401080644443600000000016034502216111124038790806444436000000000141845022161111235566108064444360000000001729450221611115715984031244443600000000027284502216111157618770364044436000000000282045022161111340067803736444360000000003008450221611115966072035474443600000000029204502216111157689270370544436000000000308645022161111872766803671444360000000002820450221611116257496036314443600000000030514502216111128966770352444436000000000367545022161111611602703620444360000000003724450221611116048791034394443600000000035274502216111136956240332444436000000000377145022161111541925003168444360000000003574450221601112569957)))
 (.node 2 (.node 1 (.leaf 3682444360000000003527450221601112253407041914443600000000036204502216111157157200637244436000000000310745022161111244812106372444360000000002337450221011112634899063724443600005000027154502210111124104660637244436000000000317145022101111819286406611444360000000005440450221011112365863066114443600014000062874502210011155156640661144436000320000484445022100111245988406611444360062100726966450221011115685326066114443600634000069664502210111153596320661144436007710000713545022100111789043106814444360077102027135450221001115604025105924443600558000067904102410011123117141059244436008280000713545022120111216139006814444360082400007303450220511112645809)
 (.leaf 6814444360077100007299430230511112689410068144443600782000065094502205011128211690681444436004860072749645022120111264544600000444360077103245934410241201118525474000004443600585000057444102412011159532330000044436000480000544045022121111592952800000444360083514858416430231211116092415000004443600842272987644302312011182195850000044436001921404817445022120111611943900000444360017613155648450221201115623965000004443600779007251734502212011154339831032044436006100000607441024120111583045008007444360001814044662450220501113549538105923033600000000034894502205011160357141059230336002213238425745022050111383857007168444360004812334577450220501116104184))
 (.node 1 (.leaf 6194444360085800008098450220501115618497062914443600682000042723302805011148423340670044436006820072461533028050111426832006054444360068202024636410240501115105380056314443600682007241204102405011149261970532444436006051131358943023050111641903507146444360011305803304450220501116007991071464443600020000033044502205011161717570631444436002320927365645022050111598508605382444360023205802835450220501118460807053824443600006165145774502205011159958480856944436006863853761345022050111304313907247444360029000005932450220811115828142063374443600779250647444502208111158613281059200036006860000448441024071111842946709584444360066400007267330280711115488897)
 (.leaf 8454444360034902014293525190711113266975086984443600221000051445251907111155673540844844436002210071488152519071111277816108448444360022100004962525190711112588018105920003600221000049625251907111180918291059200036002572541486250020071111532169510592000360023200004904450220711115608723105920003600799000054774502207111182129071059200036008350000531943023071111851218510592000360083502015319430230711116097768105920003600835092349704302307011163434791059200036007770000831745022101111810210010592000360071900006737450221011112936978105920003600221197480204502210111126745081059261236008390201866545022101111583618810592612360083736788818450221011116068497))))
 (.node 4 (.node 2 (.node 1 (.leaf 10592542360083607028885450221011113175674105922263600824147975234502210011159607441059231736006821400231045022080111346082410592395360068200006884450220401116075329105923953600682122870574502214011158200951059239536006232987717445022140111329967410592395360071910236426450220401115749466105924443600682102342834502204011137985911059244436006821309522145022050111633102010592444360068221936426450220501112908494105924443600682382872354502208011183369940767444436006560322743847521050111806653810592093360060128388847550180801112754238085594443600896000090174502205011152518020959144436009050000901745022050111587627307987444360071900715809390251201114179288)
 (.leaf 6103444360074202013952450220801115748070068264443600742000039524502207111153280850712344436007420000425745022071111597855809223444360061328387713370261211115146400078194443600664000055654502207111158198150866444436006340000713545022071111292548810592000360077702017303450220711112790690105920003600742000080204502207111128679740880844436007140071833857517071111287020809314444360054900008062500200711112818217105924443600627000071524752107111158777671059244436007140000525145022071111832097910592444360070900006776450220711115943041105924443600643000076134502207111159680711059244436006230000783845022071111847884810592444360062100717731450220711115775914))
 (.node 1 (.leaf 9799444360056700007613450220711112877546097994443600558000086654502207111160884471059244436005170000862647521071111336682508564444360044600007266450221211115739154072204443600028000037813502708111146723820767344436000280071442235027081111550687307468444360020700005416370260811116161897081994443600207102359513702612111153917010674644436002730000411037026081111526435808157444360010000003561370260711114655540088924443600028000063843502710111133255680878944436000280000607435027101111332556807626444360030700006543410240811113957937058434443600779000033023902508111152716260859744436005672652718739025101111607326109032444360056709237786410241211115794550)
 (.leaf 9390444360002400007731450221211115390935078294443600824000073924502212111153086880962544436007140322812341024071111595502509625444360066900007809370261611115872170105920003600639000081623902516111183691031059200036004420000812341024161111586082310592444360040000007646390251611113094422105920003600232000088184502216111159775241059244436002320000871045022161111603548110592444360030700008573450221611113031454105922213600643219384283702607111160153391059222136006170000736941024071111849316110592221360070400006393390250711118246546069834443600170007138944302310011127319870698344436002470000756741024101111583839408775444360022100003690410241011118028267)))
 (.node 2 (.node 1 (.leaf 8775444360015702014545390251011115600159087754443600322000047013902510111124405080792844436005580000424437026161111601683707928444360058500007713370261611112887630076934443600558000072713902516111164842700769344436004860000754239025161111582292908787444360061700008187370261611112763976087874443600069000079674102416111184150640878744436000640000487241024161111269598308871444360018300004387390250711115887970088714443600148000041873902507111158268660887144436000210000410945022071111246330510377444360002800007613450220711112414058103774443600341000080625002007111126428851059203336000090000490445022101111226965710592107360000000004577450221011115776399)
 (.leaf 10592000360000000004904450221011112638520105920003600000000028124502210011122128711059233936000030000220045022100111254364700000626360004800001877450221001118081297000004443600000000020914502210011159217150000044436000040000166045022100111559815600000444360006400002036450221001115313213000004443600010000027494752116111127062490000044436000000000316445022150111834267100000444360000000003325450221611112722862080644443600000000039844502216111155770420433744436000000000533645022161111291775204337444360000000002769450221611112991101019414443600000000021524502215111127292110806444436000000000251045022161111833650003000444360000000003362450221611115772280))
 (.node 1 (.leaf 3669444360000000003898450221611113173639037234443600000000030084502216111159322100370544436000000000308645022161111327896103565444360000000002920450221611112969461037704443600000000035744502210011129394900370444436000000000372445022160111292411503704444360000000003724450221001112947506068144443600000000037244502210011130406120681444436000000000367545022101111798471106372444360000000003548450221011115757007048264443600018000044074502210111128717770482644436002070000425945022100111575128806611444360002200004135450221011115201613063724443600010000053174502210111127162500661144436000260000715645022100111229441906611444360002600005572450221001118196327)
 (.leaf 6611444360002100005849450221001112528472068144443600689000071354502210111179111550681444436008320322696645022100111531819306814444360082802015662450221001115722593068144443600540007163614302312011125385381059244436007990071712541024120111229931310592444360081900007392450221201115597690068144443600790000069664502205011157963490681444436007710443721043023120111278750006814444360034903228020450221211113055458000004443600835020189764502212011127758790000044436002731844699745022120111850345900000444360022100006641450221201112987778000004443600349044357394752112011159172940000044436006820000578845022120111521950708621444360013425065078450221201112944379))))))
 (.node 16 (.node 8 (.node 4 (.node 2 (.node 1 (.leaf 6238444360002100004257450220501118266971068054443600247371244844102405011157458180643844436006980000457435027050111610544505532444360079903224545390250501116198388051024443600807130943873902505011159881990515944436008320000412041024050111605183805741444360083910233894430230501116055138049954443600848000034304302305011159336730537344436008482193440845022050111624495406383444360065615604966370260501113614729069764443600017112939524502205011161274500589044436008723223756741024050111627371806774444360090839298355390250501115960333073504443600842112983884102405011162575340754344436007420000556545022071111283381907536444360063400003501475210711115880986)
 (.leaf 9339444360034914725635525190711113298435084484443600221000048815251907111157719260863344436002210000496252519071111578355609055444360022100005048525190711115290744105920003600592000044214752107111129400021059200036007790000517345022071111303856710592000360083500006924430230711113121398105920003600366000060714502210111130034231059200036005050000802045022101111310390009193444360022102006997450221011113457560105920003600567000071744502210111131123001059200036006820000866545022101111840771810592542360079000008763450221011112794416105922263600819081275234502210011132266811059200036008350441729745022100111858510910592000360083230377495450221001115813789))
 (.node 1 (.leaf 10592000360082519067964450221001116108953105922353600824020079644502208011157991931059206536007142749782045022080111622955110592235360062704417168450220801116208246105923173600634122471014502205011162943801059231736006640918716845022050111879388009604444360068200007101450220501113869070096044443600664081223104502205011187283061059200936008071020231043023120111654096110592444360057609182310450221401113353158105924443600540081223104502214011180684921059200936005281553231045022140111586939610592395360079008126426450220401115790924105924443600682290266414502204011160812301059242336006822460688445022050111883444010592444360068200005958450220501116483916)
 (.leaf 10592423360068209185865450220501118739599105924263600682190664264502205011186727871059242636006822962744745022080111577895110592444360068239977820450220801118150086105924443600682363672354502208011183896441059244436006210918870852519080111831313910592093360062303218957500200801116042303068294443600935111989955002005011159045830513044436009783125900250020050111611932409283444360089600009017450220501114232233093364443600825057086654502212111163128620761844436007660000365645022071111349850907529444360077100004577450220711115655684083554443600709000071354502207111159859530921344436006270570721043023071111305769408042444360062113036966450220711118379925)))
 (.node 2 (.node 1 (.leaf 8042444360068212246509450220711115783175086644443600742032173924502207111157779180999544436007190070773145022071111609740509995444360069800008098450220711115971897099954443600799000085734502207111183812771059200036006640000852052519071111330074808972444360042300708095550180711112925465105924443600384000079955251907111129935251059244436005280000819147521161111310719309799444360056700008191475211611118359903104894443600477000084125002007111180354791043844436004860000851350020071111284266310592444360057600008897500200711115949892071104443600505000043103902512111146138090837944436000280000531435027121111528304007515444360039600006543410240811114462853)
 (.leaf 7520444360039600006543410240811114462853082864443600192032165434102412111149677680646544436002930200343043023081111540660307854444360055814723836410240711114991587099114443600442057081623902512111154995010792544436006230000396637026120111322839410592000360050500007786410240711118520703105094443600024000078384502216111184480091050944436003220918736941024161111592704910592444360028300008049410241611113221011105920003600232000086144502216111159041441059244436002320000880145022161111352199610492444360019800005653410241011118525969104924443600032000043234302310011181885321049244436001000000330445022101111840139710492444360019200706670430231011118474412))
 (.node 1 (.leaf 8775444360017606987135450221011115862726079284443600714000077633502716111128992510769344436006820000800835027161111862226607693444360064300008274350271611119133662087874443600113000058574302316111128848151013444436002730000771337026161111572132810134444360002400007386430230711115648317103774443600144000085114302307111131706141037744436001440000771043023071111291994310377444360002700006509450220711112517481103774443600020000061444502207111180960031059203336000180000586545022071111569237110592033360000200005565450221011115642670105920333600000000052214502210111159161071059216036000000000457745022101111239190410592107360000000003282450221011112891417)
 (.leaf 10592000360000000003258450221011117868214105923393600000000024954502210111124402230000044436001040000289845022100111323647910592111360000300002143450221001112301341000004443600366000025514502210011127210490546444436000000000391045022161111339903005555444360000000006494450221611116357658043454443600000000033134502216111136967220288044436000000000272845022161111315965303669444360000000002769450221611118440538036694443600000000028204502216111158964520352344436000000000292045022161111627383403705444360000000002769450221611118454918037054443600000000029704502216111159209660370544436000000000282045022161111592458903784444360000000003620450221011113045253))))
 (.node 4 (.node 2 (.node 1 (.leaf 3364444360000000002728450221011113636195035064443600000000034684502210011136949580350644436000000000389845022100111359245106814444360000000003574450221001113024495068144443600000000036204502210011161351880681444436001830000352745022100111279506406814444360019800002597450221001115697745048264443600000000038604502210011182065600482644436003220000569245022100111277540506611444360087200007582450221001115885004066114443600890000046254502210011154996720661144436008420000267845022100111241778506611444360002600007468450221001112717556068144443600413000039814302310011126684240681444436004860000487543023050111246058206814444360080700007135450221201118230616)
 (.leaf 5496444360068900704744450221201112821876000004443600867057088374302312011184988070000044436008710200888343023120111344741400000444360063413938800475211201116222658000004443600875264388475501812011156588520906544436006820918565341024120111493400707837444360062100004970430231201116145154063484443600567032149044502205011157137980564144436008240570482745022050111611387105723444360082400004904450220501115357486071974443600682000078854102405011160502760672244436006820000454133028050111539706205911444360071905704225350270501116526805051964443600824020043103902505011140920300574144436007820812428635027050111380089207095444360063928324966370260501115729000))
 (.node 1 (.leaf 6383444360060513034446370260501113300398101524443600634228771333702612011157774590776044436006823067760733028050111531649105423444360082402004110370260501115876440056754443600824007043713702605011142939270692144436008240441760837026050111374248706816444360076600007392450220811114527541066794443600704300071354502208111154141310760344436007043325793445022081111505048507536444360059241013821475210711112967476084484443600558409546165002007111156105040828144436002730000399352519071111838236808633444360022121254962525190711113148924105920003600221000053935251907111126046771059200036002210000514452519071111284437310592000360022100004944500200711115669917)
 (.leaf 10592000360023200004269475210711115833050105920003600742000055454302306111161264841059200036008240000640443023081111570481010592000360082800698080430230711115555463105920003600824006979974302310011160361701059200036005400440547745022101111585453910592000360040000005477450221011112784754105920003600334000053384502210111126444170919344436005920000711645022101111859257109683444360057600007116450221011118248382105920003600682000072354502210111189197571059200036008280000735845022101111328226809665444360070401998849525191011115892524105924773600714314288534502210111135104201059247736008351830878145022121111918123310592477360082503208801450221011116402164)))
 (.node 2 (.node 1 (.leaf 10592226360079304407174450221011112648030105920003600825080875504502210011158532831059244436006820199754545022050111376207909604444360062700697545450220501118445869096044443600549121623104502205011160637701059244436005170808231045022140111273415509604444360058519558801450221401118429685096044443600682000086144502205011159611681059239536007191466831745022140111847181409604444360081900007545450221401116682339096044443600669195575454502214011165228021059230936006822176754545022080111862155910592426360068208087545450220801112840073105924263600682242072974502208011155981140767444436006131466889552519080111853086807674444360089611138976450220801118316960)
 (.leaf 9147444360088000009002500200501115782495078814443600657000072925251905011155493970788544436006500000729252519050111497188810592074360077104404191430231211113312237092134443600643000071354502207111128802150921344436006010000793445022071111269489808664444360056700008383450220711118294489099954443600605019984884502210111128705751059200036006340000824455018071111859242710592000360038401997724550180711116016249105924443600366000079055251907111129597451059244436001440000889945022161111341427310592444360036600007925550181611115980025104894443600477000086046001616111127802870764644436006821300424437026071111584368010592000360023203205241390250701118490623))
 (.node 1 (.leaf 10592000360033404407210430231611115824305105094443600366000078164302316111128998761059244436002830000822339025161111854590510592444360023200008614450221611113221879104924443600558000086684102416111162002291049244436003220000639339025071111335771610492444360002800005251450220711116004631104924443600232000073694102407111129201381049244436000600440696645022101111294219208775444360018600005756430231011115532467081084443600116000043234302310111131227380769344436005400000492139025161111258195408787444360034100008566525191611113281548087874443600400000088665501816111159872110878744436003660000799743023161111830621508871444360002400004651430231611112861205)
 (.leaf 8871444360028300007786410241611115751734088714443600400000082924302316111159378681013444436004670320843845022071111292796909809444360000000006966450221011118260044098094443600000000045774502210111157283320980944436000000000313945022101111259202809809444360000000003656450221011112492417105923393600000000040804502210111125343321059233936000000000272645022070111281373500000444360082405633809430231201113089659043974443600003000022004502210011127352580000044436000000000206345022100111807512800000444360029300002921450221601115273173000004443600000000031974502216111126807940495544436000000000383245022161111536326105357444360000000003169450221611115424836)))))
 (.node 8 (.node 4 (.node 2 (.node 1 (.leaf 5958444360000000004377450221611115809577033674443600000000032644502216111128340820235544436000000000264445022161111585661603232444360000000002728450221611113590385037644443600000000036754502216111160529600317444436000000000342145022161111579904403932444360000000003771450221611115439515035034443600000000036204502216111154109600286044436000000000342145022161111584594203460444360000000003574450221611113147202035074443600000000035744502216011156021180335444436000000000367545022100111598769703364444360000000003620450221001115931158033644443600000000035744502210011158519870336444436000000000367545022100111836541903506444360000000003468450221001116257264)
 (.leaf 6814444360000000003468450221001112848840068144443600027000031994502210011126769950681444436000000000342145022100111550866206814444360000000004594450221001112711666066114443600033000067534502210011181315780661144436000000000626845022100111822763906611444360005700006426450221001115710742066114443600890000047574502210011156080350661144436008360199467045022100111858496906611444360059200004228450221001115434308066114443600026000050664502210011159077580661144436000260000402545022100111583500301199444360002000693011450221001113218332011994443600016006948344502210011181318700119944436002260000430641024100111822086501199444360077101994587370261201115518418))
 (.node 1 (.leaf 1199444360076600004587370261201118193820011994443600431000034663902505011158049320549644436001440069343043023050111281278205496444360077103204717410241201115814669056974443600771032064834102412011130947950569744436008710320900762515120111862821205697444360087203208986575171201118193189056974443600879069489304752112011183806070000044436008771955895750020120111866773200000444360081903207552430231201118557321084474443600682000052014102412011146611480769144436007090000489143023120111468402507944444360061900005078450221201115488082063714443600566000048274502205011157471390688244436006820000756741024050111405305506605444360068201994469330280501115777494)
 (.leaf 6082444360071416274350350270501115781242053094443600790121638493702605011170178790564544436007143028390135027050111601935806168444360068225984212330280501115925401067214443600698245458593502705011159366830658944436006892233474837026050111577201005919444360070920214300370260501115864600068794443600656183058593502705011153252650673644436000690563545643023050111385969306363444360019803204717410240501116345511067044443600704044063843502705011158808000747644436007990000730345022101111332556808550444360079900007392450220711114974018105924443600627421188364502207111158403450828144436006013558396347521071111302375209852444360029326967569525190711118399690)))
 (.node 2 (.node 1 (.leaf 9852444360025700004801525190711115900106095654443600221000053215251916111155458481059200036002210000577752519071111280133910592000360022100005709525190711118179921105926263600835000041204102401111130108071059200036008350000440041024061111583237210592000360063400004970430231011115741167105920003600366000052514502210111181481990968344436005580068677250020071111294231910592000360083700006884450220711113701068105924773600714000089665501810111138490831059222636007710000729745022101111844761910592000360083500007417450221011113966468105920003600835189075744502210011129230820817744436006861210231043023050111621796210592444360084916932310430231201116601032)
 (.leaf 10592444360051708042310450220501112816521096044443600643138186053902508011185175080960444436007791693848845022050111854098010592423360068932867303450220801113843614105924443600682182375454502205011188375821059240036006822480782045022080111572855510592400360066428687897450220801115632892105924263600682031872354502205011128410790713144436006133615862255018080111265699307674444360064324088957450220801113607131082464443600782235990035251905011154402371031644436004670438900860016080111632415710371444360084700008994475210801116075591078954443600648000072925251905011156463150788844436006570000729252519050111554939710592074360078200687100370261211116263337))
 (.node 1 (.leaf 10592074360076600004042430230711113376185105920003600585000073924502207111128734950921344436005580000809845022161111354438309995444360036600008700600161611115976402099954443600467000085576001616111158798620999544436003660000794457517161111592338510592444360036600007805525191611118289159105924443600341000081575251916111158803581059244436002320068846350020161111313133810592444360010400008573450221611115851653105924443600100000088724502216111137222771059244436001830000847652519161111327120710592444360030703188813600161611115806861105924443600400000087104502216111160904660683444436007140552571333028081111536552307689444360057632114525370260711119041328)
 (.leaf 9582444360016429936361430230711113257860105924443600467000080494102416111159953081059244436005050000816239025161111860727010509444360032200008317370261611113495638105920003600221000079783702616111184200091059222136002570000885345022161111367499610492444360058500008668410241611115864467104924443600540000072713902516111183910311049244436000250068457745022071111844097810492444360011600002773430230711115828880104924443600136006826734302307111186636350569744436002930911336541024101111587680505697444360002000005865450221011118315372105920003600144000060374302310111128050591059200036003840000440041024101111278371508775444360000909113304450221611115996118))))
 (.node 4 (.node 2 (.node 1 (.leaf 8775444360018600007285410241611115777473093174443600148000050544302316111127409810769344436003410000748043023161111610698908787444360025700006790410241611113070290087874443600032000062895501816111187447640928644436004860000754239025161111849020108871444360022100004997410241611116159338088714443600069000058644502216111130072561013444436000250000481643023161111303183010134444360076600008090390251611113188564101344443600064000054554302307111127731290980944436000000000556545022101111262018109809444360000000004904450221011112832510098094443600000000058654502210111180495290980944436000000000490445022101111304755107904444360000000005662450221011116288793)
 (.leaf 9809444360000705524764475211001115739304105923393600015000042694752107111155307450980944436000150068698447521071111844585510592000360000000004577450220711112815427000004443600005000044084502207111140694081059200036007091759547745022120111336255310592000360081936586653350271201118639530105921113600413000037123702612011185074260439744436003340000522145022120111583874904397444360059200004516450221201118152643000005243600000000020914502210011158491330000044436001130000283750020160111262063600000444360001100001925450221601115601111053574443600000000055914502216111126014990336744436000000000363645022161111810243303367444360000000003338450221611115564633))
 (.node 1 (.leaf 3367444360000000002991450221611118251458035834443600000000033624502216111158698420332744436000000000342145022161111543250603187444360000000003362450221611112872604031874443600000000034684502210111131826570346644436000000000377145022161111296834203080444360000000003574450221011115797271034004443600000000036204502210111158506880308044436000000000346845022100111828545503055444360000000002970450221001115274790034164443600000000026444502210011184233730342044436000000000372445022100111588296903416444360000000003527450221001113288191068144443600016000034684502210011127301920681444436000000000228545022101111826298906814444360000000003724450221001113235205)
 (.leaf 448360000000002597450221001115763869068144443600000000020924502210011128312820381744436000000000742245022100111557129503817444360000000007422450221001115480887038174443600000000081024502210011182055390661144436000180000718845022100111289340801199444360010000004007450221001113460241011994443600010000035444502205011131023700201044436000000000316445022050111587721002010444360000300002516450220501116075815020104443600000000024074502205011159035670426944436000000000251645022050111813298904269444360004800002721450220501118135704042694443600003019840804502205011127876880426944436001040000441643023050111870213004269444360018600003753410240501115955672)))
 (.node 2 (.node 1 (.leaf 4269444360041300003037410240501118682810056974443600431000031463902505011134234990000044436008821620867939025120111849383900000444360088816208831410241201116461728000004443600890000088144102412011149550340642844436009910198517345022120111526558007103444360068200005900330280501115001693091124443600682291762663302812011157271350666844436006693753464535027050111514642409363444360054019506685370261201115800701063514443600803121059763702605011159302570620344436006820688518633028050111652940206061444360054018234686390250501115756670061694443600157138137534102405011162329430658644436001131759481643023050111628837206324444360017600004490430230501117192119)
 (.leaf 7482444360068200007339330280501116558937069344443600576091170193702605011171278040597444436003410000353441024050111665174405467444360078200683901350270501116703147075034443600799000073034502210111157415520884344436004240000739245022071111538612910592444360045600008312450220711115193189069134443600799000033044502207111147918700861244436008370437489143023071111503601507990444360079306843952450220711113140669098524443600349000047155251907111130407010985244436003660000569050020161111293379410592000360022100005464525190711112968752105920003600221000056355251907111157964701059200036005170000482745022071111552341810592000360077100004191430230711113087950))
 (.node 1 (.leaf 9705444360022100008020450220711115798738105920003600698000054594752107111137894031004644436007710000895457517101111600612910592474360083200678988525191011114097850105924773600714145489164502212111137187071059206436007790197735845022100111309853110592064360079028838333350271001118138934105920643600853320280902903010011155595741059206436008452352822631029100111828717510592444360071918178764430231001112797025105924443600601137323104502205011157776750817744436005761202231045022050111844853409604444360051706842310450220501118376342096044443600669128823104102405011188281061059244436008351454754545022050111610306210592444360080340777545450220801118565203)
 (.leaf 10592444360068216867964450220801118418058105924003600664283978974502208011129109390779544436005761099735452519080111849157110592426360052837168743500200801113046812061804443600639288388704752108011185005280647144436004600000418739025051111332556809782444360079900008814525191211115444462090744443600853000083574302312111159687650849344436008450067756741024121111577355507463444360071400006891430231211116206343074634443600682000055654502207111138069930761844436007190067603743023071111889803310592074360071400006144450220711116115269105920003600686000055654502207111131927921059200036005670000761345022161111352527709213444360055800007731450221611118531636)))))))
 (.node 32 (.node 16 (.node 8 (.node 4 (.node 2 (.node 1 (.leaf 9213444360055800008098450221611115755023100944443600467000085665251910111157629181009444436004130000875760016161111579950809995444360051700008455575171611115906856099954443600357000085156001616111159629191059244436003660000833857517161111577283710592444360036600008095550181611118500104105924443600232000079765002016111161829821059244436001830000833447521161111835791310592444360010000008763450221611115687077105924443600113000086654502216111140010511059244436001160000887245022161111629059510592444360010000008916450221611119287929105924443600100000089934502216111143478591059244436000180000864150020161111404211910592444360002500008040475211611118666476)
 (.leaf 10592444360010400008881525191611113189499105920003600634100758353502712111159353691059200036007772003513137026071111600127109582444360016400005894430231611115904842105924443600215000084713702616111136559011050944436002210000842135027161111594729210592000360022100008008350271611118429131105920003600232000086144502216111163031351059200036002320000871045022161111629821610592000360023200008665450221611113725852104924443600477000069664102416111135270881049244436000240000425745022071111839112310492444360017006844191430230711113350350056974443600057000024074502210011132164070569744436000200437330445022101111550416710592000360001603176144450221011115407527))
 (.node 1 (.leaf 9780444360005500006776450221011113035352097804443600015000066704302316111158884050931744436000200197404243023161111549279009317444360017600004816430231611115256655091714443600366000077533902516111182042830917144436001340000729943023161111563975507693444360034100007201410241611118702196091714443600293000072104302316111159952480878744436005280000804941024161111869725508787444360001500007408475211611113490708092864443600400000078533902516111131535490991944436000720000523143023161111573328209919444360002800005530430231611118475970099194443600032000047374302316111128718340977744436000020000474445022161111817437610134444360019200007386430231611118316728)
 (.leaf 10134444360023200005118410241611113126599098094443600064000070504302307111156915010980944436000000000586545022101111862577009809444360000700003670475210711118378970098094443600000000041094502210111156824690980944436000000000354445022101111575420309809444360000000003952450221011115819304105920003600000000061444502207111129460501059200036000000000739245022071111322155310592000360065600008383450221201113480922105921113600782000057013702612011164467600000052436003570000260547521160111575476005394444360010400004744450221601115713298053574443600000000024034502216111182014280535744436000000000408045022161111270359305357444360000000005440450221611118230580)))
 (.node 2 (.node 1 (.leaf 5148444360000000005662450221611113226682051704443600000000051484502216111160722010451444436000000000346845022161111587311103644444360000000003527450221611113186426031874443600000000033054502210111133561390346644436000000000342145022101111570291803466444360000000003468450221011118342125030944443600000000034684502210011136530560335844436000000000377145022100111315807003416444360000000004308450221001113124415051054443600000000029914502210011158294880681444436000000000319945022100111866677006814444360000000003199450221001116059955068144443600000000021894502210011157641120000044836000000000336245022100111300259300000448360000000002642450221001118220293)
 (.leaf 6814444360000000004174450221001113075659038174443600000000069734502210011155794500381744436000000000512645022100111790684906611444360000000006716450221001115298052011994443600000000064634502210011125731720661144436000000000454345022100111552951206611444360002700006144450221001113249114066114443600423000077424502210011157937980661144436003340000592745022100111804615501199444360000900002898450221001112851351020104443600021019735444502205011144533940201044436000060000328745022050111576449704269444360000300004283450220501115983274042694443600026019761674502212011186837880426944436006130437854843023120111578495305697444360040000008357430231201113655359))
 (.node 1 (.leaf 444360087010998864410241201112710450054824443600871019750784502205011152312170606444436007790197507845022050111520774707046444360068200005820330280501113619314075624443600322068460123902505011159475490723144436004862159448441024050111392816705628444360087701974120410240501113466341065464443600682043754603302805011144453820612144436004770906524139025050111666508106338444360066900006777370260501116802856079884443600682006777073302805011152364230567444436007790000531435027050111522570606504444360062000005297370260501116827564056234443600824031754163702605011133255680747844436004240000425745022071111479187007720444360079900005865450220711114791870)
 (.leaf 8016444360070438173952450220711113633330098524443600576000044425002007111183502650985244436005671879896745022161111364841310592000360022100006300525191611113334366105920003600221019659235251907111181183651059200036002210000570952519071111577000310592000360022100007303450220711113013969099844443600400119279344502207111182472630998444436004420000482745022071111575456809683444360057603156011500200711113543674105923683600836000064264502207111136398501059247436008241743897655018101111376941310592474360071400008994575171211113923968105923773600771152786654502210111186064841059200036008280794752345022101111328465210592064360076611928295390251001113075787))))
 (.node 4 (.node 2 (.node 1 (.leaf 10592064360076622588683410241001115811309105922133600682043588534502210011130880621059244436006822834866545022080111295332609604444360066917432310450220501113256424096044443600517067823104502208011130097630960444436005580196231045022050111865864910592444360069805488438450220801116303267105924443600669239171904752105011133814071059240036005492343883350020080111840127709728444360076636049026550180501115778679050784443600714000029793902505111133255680570144436007140000418739025051111332556808745444360068900008743500201211116425136087454443600643031582414502212111134424260874544436006431992831745022121111574143008745444360074201964904450220711113252764)
 (.leaf 10592000360065603155565450220711113048479105920003600540000071354502207111157058841059244436004670000713545022161111613955110592444360045000007754475211611113210644105924443600334000082835002016111163889561059244436005050000809555018101111603161410592444360036604357830550181011115796815105924443600366019679955251916111184621451059244436001830000889847521161111345916210592444360015700008958475211611119321408105924443600164000085284502216111141375151059244436000210000864150020161111439742210592444360002600008174450221611113594392090884443600686000084435501812111158775720900444436004670196802045022121111531368909542444360001000007019370260711115727826))
 (.node 1 (.leaf 9396444360014800007100370260711115967827096554443600010000070193702616111162908981008944436001570678732537026161111631562610592444360071400008162390251611116925805084114443600689367067143102912111134986281059200036002831282463641024071111357067510592444360001700005564450220711116124662105924443600221000084373502716111138194651059200036002210000840435027161111594634010592444360023200008438450221611113514102104924443600605000081234102416111160412101049244436003220000696641024161111608367910592148360000300002944450221011112816222105921483600020031572994302316111184440990917144436001360000455941024161111261763909171444360010400004577450221611112908224)
 (.leaf 9919444360002200007934450221611113367361099194443600020043548274502216111128439200980944436000200000474445022161111840143609777444360023200005173450221611113175742098094443600015000045774502207111159420991059200036000000000761345022161111837673010592000360000000007135450220711113075702105920003600450031581744502212111184549001059200036003490794829243023121111898484110592111360076600006171475211201114171446000004443600824000049744502216011179718150575344436003220000412645022160111581692600000444360000000003538450221601115616556053574443600000000031814502216111154134990509144436000000000448645022161111302302605170444360000000005506450221611113508483)))
 (.node 2 (.node 1 (.leaf 4625444360000000004150450220711115012504039974443600000000028644502210111134076430308444436000000000284645022101111584245802866444360000000002728450221011113456777032264443600000000028204502210111155975110274844436000000000268145022101111542681902847444360000000002728450221011115711796051054443600000000038444502210011158536270510544436000000000461945022100111609217205105444360000000005078450221001115693869051054443600000000048974502210011183327570510544436000000000659545022100111583201805105444360000000003574450221001113533816068144443600000000036644502210011182866330261544436000000000187045022100111552232606814444360000000002920450221001115645951)
 (.leaf 6814444360000000005382450221001113188068000004483600000000037554502210011157236160119944436000000000458445022100111839844401199444360000000664904450221001115682670066114443600022000061444502210011129128040119944436000000000525145022100111571997201199444360000000003051450221001115377486011994443600019000025284502205011186880960119944436006340000264641024050111388785701199444360002500004011430230501113800296020104443600100000027734302305011190917350119944436001980000375341024050111605396302010444360001600663421450220501118694342042694443600779067885264102412011134146070569744436006980000671143023120111363841900000444360087000008650410241201113237151))
 (.node 1 (.leaf 444360087013688926430231201113194946074384443600682000072673302805011140867660718044436006820000712433028050111415379806872444360062322586790410240501114367203064704443600842292848724102405011133880890574044436006560000375743023050111378689907445444360063200007286390250501116288666066764443600682000068393302805011176580220612244436006030000488833028050111664665009178444360068208995408450220711115281920080164443600698000046624502207111138007560883244436002320000826347521071111581192010592444360022105458986450221611116156577105924443600221000086945002016111164540511059200036002210000847652519161111836231010592000360022103145546525190711113208037)
 (.leaf 10548444360022100008656525190711115458803105920003600221000057775251907111157897901043944436002210194857345022071111570520809984444360022100008710450220711113292406099844443600413000087625251907111186304210968344436004670000887955018071111624649509657444360029300008396475210711113466362105923683600807000062984502207111139738201059236836005760000886557517071111345228910592444360071403148951625150711116044843105924743600714043389936001607111137898991059237836007711443857345022101111560673910592000360080727447417450221011115825894105920003600782108873584502210011160877081059200736006862499876345022100111848648310592007360068912808614450221001115661739)))))
 (.node 8 (.node 4 (.node 2 (.node 1 (.leaf 10592000360081917388388350271001115822635105920643600870152177792503210011133287841059222336006690433876345022100111292324308177444360068201942310450220501118424215096044443600686089923104502205011131989971059244436006170997231041024080111328594909604444360082408992310410240801113791319105924443600664099787804752108011145247461059244436005403302852052519080111315239510592400360054008998852475211201113642442101294443600775000090205251905011161143611059244436006970000887047521140111478172609313444360071900008548430231211116990094093134443600592000070574502212111194355690874544436006170000692443023071111591885008745444360074200003952450220711113457853)
 (.leaf 9793444360056700003811450220711113384219105924443600257000073034502216111157154581059244436003070000795347521161111385148010592444360021500008852475211611113433286105924443600104000089444502216111186293731059244436001570000894445022161111852360310592444360020700008241450221611113829344105924443600136000089164502216111146264401059244436000190000902870012161111652621410592444360002500008383450221611113987260105924443600176000088495251916111188987411059244436004000000893762515161111609800110592444360040000008963625151611116109449105924443600477000089255751716111162045121059244436007090000849947521161111612227510075444360070900005173450221611116029527))
 (.node 1 (.leaf 10159444360062100008543575170711113534313105924443600617006588935751716111159966491059244436006980000848637026161111582325410592444360059300008620410241611116070570093984443600221043380204502212111140443971059244436000690000804941024161111878282710592444360011600008241450221611116073842105924443600116000082414502216111160271501059244436003410000839647521161111393010710592444360071409978355390251611115737633105924443600234000085734502216111158230401059244436002360000832541024161111581997008815444360046600007731450221211115869279084744443600623136453143502712111138604271059200036000480194533845022161111360270710398444360001700005648450221611116155907)
 (.leaf 10592444360022100008333350271611113639977105924443600221000082063502716111188601311059200036002210000840435027161111355643010592444360023200008665450221611113834324105924443600232000089105751716111156915411049244436007710000874239025071111594435710492444360074200008679390250711113468914104924443600669006587093902507111135071431049244436001640000851350020161111854352309604444360005700003811450221001118397514096044443600027019455654502210111157210660917144436000690000463641024161111832521009171444360022600007271390251611118382053091714443600384000074323902516111135083070878744436001000000748043023161111610111908787444360002200007480430231611119569207)))
 (.node 2 (.node 1 (.leaf 9919444360004800007299430231611115784517099194443600057000048914302316111130071650980944436000570000481643023161111821124209809444360018300007934450221611118577802098094443600157000079344502216111155996140980944436000330000732047521161111310610209809444360000000008241450221611113288980105920003600000000071354502207111159044171059200036001700000853839025071111577759410592111360002809978995550180711115920146105921113600825099787093902512011189140501059211136008280194870939025120111893890809604444360077703148302525191201115942636096044443600467019460374302305011185608691059211136003340000316445022100111820292009604444360082500002516450221001115870652)
 (.leaf 524360082400002537450221601118061020105921113600824000034594502216011182871391059211136000170000349545022160111565975710592111360000000004643450221611115449814000004443600000000032404502216111157639500000044436000000000324945022161111562623405170444360000000004974450221611118567488045144443600000000042834502210111158231620542244436000000000678145022071111338523005422444360000000006208450221011113253474046654443600000000049094502207111135851420517844436000000000476145022071111552193805610444360000000004035450221011115797331041684443600000000035514502210111129399520261544436000000000528045022100111830266502615444360000000003819450221001115707371))
 (.node 1 (.leaf 2615444360000000003959450221001118544252026154443600000000034824502210011156346330394344436000000000387645022100111573089303943444360000000003421450221001113227107000004483600000000040804502210011129803210381744436000000000551945022100111322498503817444360000000004543450221001118048950011994443600000000045164502210011151569370661144436000000000490445022100111562210401199444360000000003811450221001112935364011994443600232000026914302305011159376760119944436007190000322735027050111380297801199444360074200004169350270501116492925011994443600766000041693502705011165032990119944436004860000396637026050111348173602010444360028300002870390250501118465534)
 (.leaf 4269444360000600003287450220501115797685042694443600000000038764502205011139569390426944436000000000330445022050111378351205697444360044200004816430231201113994843056974443600870019486504102412011130932280000044436008700000863641024120111823592800000444360087011867728410241201113243562000004443600870152190095751712011134939940000044436008900000871141024120111475005806390444360048608993894430230501113295940061794443600283006554564302305011143745050780344436005850000428050020071111365643008693444360036600004681475210711113901071105924443600221000088325251916111160604491054844436002210000539352519071111313464410592000360022100004904450220711115767109))))
 (.node 4 (.node 2 (.node 1 (.leaf 7906444360022100008383450220711115708737105920003600221000046624502207111157039801016244436002210000809845022071111570592409984444360022100008317450220711113408171099844443600467000088665501807111161260080965744436002320000838345022071111374953710592368360025700007235450220711113388875105924443600714108489636251507111155764861059247436006173491896752519071111370292310592623360069800008818450221011118264125105920053600835089374174502210011134733601059206436008350893835833028100111338427910592223360059217978614450220801118250731105922133600643078423104502208011131195650817744436006980000866545022050111839664410592444360060101938626475210801118364747)
 (.leaf 10592444360052817338710450220801115781400071834443600623078423104502205011162289441059244436005281084857345022080111569849410592444360052801938588475210801118248429071814443600613143886885751708011181685031059244436005400431864150020080111274473709038444360054915138834475211201118918529090384443600623166388335002014011160454090805144436006820064809365014121111625011708745444360064300007934450220711115862847087454443600771000045774502207111185128260914944436007420000381145022071111608985409149444360042300003952450221011118777059097934443600186000058654502216111137664071059244436003222243811847521161111610836610592444360014400008818450221611116253043))
 (.node 1 (.leaf 10592444360010000008872450221611118488582105924443600283000088364502216111140495901059244436000720000838755018161111617639310592444360018300008302525191611113806653105924443600477000083566001616111159287591059244436004770000824455018161111875722610592444360060100007995525191611113291084103964443600605000080586001616111188722671039644436005670000835660016161111633557410592444360083700008568410241611114062087105924443600413000084164302316111191143081059244436000220000872943023161111613907510592444360010400008528450221611116457731105924443600221000086945002016111160050251059244436004230000857345022161111611193910592444360057600648416430231611115752106)
 (.leaf 10592444360064300008262410241611115824235105924443600232000086415002016111156242171059244436003230000848845022161111601298109017444360071432977608370261211116079721105920003600477358160743502707111142592021039844436006050064808043023161111374402910398444360013400005606390251611113966344105924443600226000084283702616111139518671059244436002730000858539025161111344886510492444360071900008725390251611116163965104924443600719000087423902516111133397821049244436006860000866639025161111333537505697444360052814387113390250711118713008056974443600549043145253702607111160625050960444436002320312514543023071111335417209780444360011600006361430231011118658185)))
 (.node 2 (.node 1 (.leaf 9780444360042300007753390251611113376843091714443600015000057564302316111128537150917144436004420000712541024161111578459809171444360011600004042430231611113464185087874443600027000057564302316111182834100991944436000690000721043023161111340357609919444360006400005455430231611113092075099694443600021000050784502216111132871930980944436002320000756741024161111405048609809444360023200008836450221611118722111098094443600576000079765002016111184764510980944436000000000809845022161111332387510592000360000000008317450221611113603117105920003600069006482624102407111138410281059211136005580000889643023121111911042510592111360071400009000450221201119067888)
 (.leaf 10592111360000000006163450221601113175115000004443600000000034214502216111130362170521744436000000000375945022071111591261605174444360000000005089450221611115931857049214443600000000049744502210111135078560542244436000000000502745022101111836433705610444360000000006681450221011113319470058174443600000000068134502210111159671930508244436000000000595845022100111845861405127444360000000006298450221001115547130026154443600000000063774502210011157392430261544436000000000272845022100111570939502615444360000000003626450221001113637492000004483600000000038764502210011180815160119944436000000000444745022100111539544103817444360000000004109450221001113274454))
 (.node 1 (.leaf 1199444360000000003656450221001112893066011994443600000000034594502210011179963320119944436008030000866841024120111673291601199444360074200004169350270501116165624011994443600714000026183502705011134822940201044436007040000411335027050111848692001199444360040000004463390250501115545403042694443600009000030514502205011159428480426944436000060000316445022050111882043604269444360003300003479430230501118798074042694443600307000069664102405011139246880426944436008190000718541024120111601311204269444360084800007314410241201113761673042694443600771000057933702612011159182630569744436005170000636541024120111598840605697444360063400006365410241201116068285)
 (.leaf 5697444360085800008697410241201115659392000004443600867000086684102412011157741830000044436008620000866841024120111572734100000444360087900008952430231201115859279000004443600890000089054102412011148831830712244436006050193745441024050111517781205257444360089614385841410240501115963969070574443600639127278164302305011166942970868044436002320000506955018071111469575007631444360063400003977500200711113516973084044443600221000046814752107111158162851059244436002260000883350020161111554914410592444360022100638957450221611116139727105484443600221000085665251907111141099411032844436002210000837052519071111826864010328444360062700008354500200711115354004))))))
 (.node 16 (.node 8 (.node 4 (.node 2 (.node 1 (.leaf 10328444360064300004780500200711118200867105920003600307099047444502207111181846641059200036004130000517345022071111559518109984444360041300007816430230711113393216105923683600621000085035751707111138474160965744436005850063831745022071111594634010592368360060500007057450220711113493696105926233600349006388014502207111133405381059200736008370655740727031100111346635310592007360084628858073290301001113842671105920073600682031187634502208011157984951059222336006820890880145022080111337525310592213360068208902310450220501118786402082754443600779006388724502205011158591230817744436006820000878145022080111582740208142444360068915838800475210801118611713)
 (.leaf 6318444360065601928743500200501116186666071814443600558273087085251908011159514621059244436005282237880047521080111600944909038444360054026948818450221201118548058045364443600879054290156001608011140168930814444436006270000650945022071111381205708823444360041300007135450220711115695954088234443600656000065094502207111153391660882344436007770000365645022071111542376209149444360068200006776450220711115922777091494443600558000061444502207111158533540914944436001860000330445022071111406740909793444360018600004744450221611113773847097934443600207000068844502216111188520171059244436000720000857345022161111874110310592444360002800008543575171611113993305))
 (.node 1 (.leaf 10592444360006000008566525191611119211939105924443600100000088994502216111163007771059244436000600000901055018161111599571410592444360017000008899450221611114797276105924443600057000089755751716111160252581059244436000210000841970012161111395898610592444360001900009023700121611115975270105924443600176000089616501416111146650561059244436004500000856652519161111416446210396444360033400008208500201611114155824105924443600837000086364102416111162580871059244436000040000869843023161111908268310592444360023200008872450221611114074175105924443600232000085555002016111162284791059244436002320000844847521161111612701010592444360023200008743500201611118694511)
 (.leaf 10592444360023200008600500201611118724705105924443600232000088975002016111157598001059244436002320000886950020161111588132610592444360023200008799500201611115776827105924443600980134885293302816111153058411050444436006131659764639025161111390639009579444360038400007938390251611113877614103984443600221000078543502707111186336971039844436000330000547745022161111411294110398444360001800005648450221611116265878103984443600104000057234102416111160257541059244436002210000868341024161111854211910592444360023200008694500201611118986245105924443600247000082634752116111146034111049244436007190000870939025161111852760810492444360074200008725390251611115460077)))
 (.node 2 (.node 1 (.leaf 10492444360080300008514370260711116198640098174443600176000035344102407111138989690960444436001570063552539025101111314973809780444360013600007113390251611115830570097804443600027031143234302316111137880370978044436004500000812337026161111356698709171444360032200006777370261611113376603091714443600144000045594102416111134878980991944436000170000614445022161111350231509919444360070900007901370261611115750013099194443600134000056144302316111140820490996944436000190000848845022161111859666209809444360005500005319430231611113534349098094443600322000088724502216111160910690980944436000000000793445022161111410607110592000360000000007613450221611113467738)
 (.leaf 10592000360000000006966450220711113958778105921113600019000090436251512111158582431059211136006982089891243023121111905122210592218360078200002007350270501115545768105922183600004000020914502210011182868781059211136000000000206745022160111307187800000444360000000003240450221001113206034051524443600000000035164502210011158535760515244436000000000423545022160111856788305021444360000000006058450221611115787810049214443600000000056624502210111134464330492144436000000000586545022071111364290805027444360000000006828450221011115698160062854443600000000057474502210111137039120510544436000000000570345022101111587366805105444360000000006291450221011115879437))
 (.node 1 (.leaf 5105444360000000006058450221011115931412052514443600000000060584502210111133756510261544436000000000492045022100111580070102615444360000000004202450221001113061217026154443600000000038614502210011129190140119944436000000000369945022100111850625201199444360000000003952450221001112825336038174443600000000039524502210011154745520119944436000000000330445022100111275737501199444360084905428487410241201115990116011994443600704000080843502712011149446710119944436008240000720141024120111692002301199444360071403114718350271201113801208011994443600704000058353502705011132211080119944436006270000355535027050111618400504269444360079900637100390251201116012181)
 (.leaf 4269444360082500007011430231201113985293024454443600819000068624302312011158087390244544436007090000499741024120111868366005697444360063400003090370260501116191848056974443600709000035613702605011160745700000044436007990000571137026120111842899300000444360084500007285410241201115667245000004443600856000086844302312011184089480000044436008480311785743023120111270955900679444360095003115914390250201114974178072094443600215043059584502205011157619120792244436002320192773145022050111599134408833444360040000004456525190711113669191081904443600828000042574502207111141884361032844436006890062824145022071111548384409762444360066403104408450220711115709932))))
 (.node 4 (.node 2 (.node 1 (.leaf 9762444360065601914662450220711115791926079064443600322000048274502207111184471020790644436004670000498445022071111341117809984444360019800008098450220711118596289096824443600613000085955751707111134861420997344436007040000830252519071111556107109657444360055800004827450220711113497694105923683600714000049044502207111136737361059236836006691261848845022071111839209910592368360079900008317450220711113126198105924813600803042887634502210111157068141059248136008370540785825032101111551692010592005360083700007753250321011118384194105920073600846077374952503210011138026291059206436006820654881845022080111377783909613444360082403108763450220801116291424)
 (.leaf 8275444360083608858899450220801116156009081774443600803184790004502212011195207910888844436007901261885345022080111576260408132444360057605408780475210801116040329081794443600517088587625251908011135591580620444436005170885878047521080111912844005859444360052824098763450220801115996037090384443600835042890276001602011156716790453644436010810000900250020020111358998607398444360068200004944500200711115963749078324443600682000045774502207111160681830783244436007710000283545022071111371935009793444360019800004974450221611113900401097934443600183000083174502216111139746521059244436001000000843845022161111363601810592444360010400007948625151611114052313))
 (.node 1 (.leaf 10592444360002500008982675131611116236231105924443600057000090006251516111189729421059244436002470000893145022161111899291210592444360001900009047700121611120300823105924443600283000085734502216111134700671059244436002320000861445022161111884773910592444360028300008957450221611114334232105924443600232000084884502216111157751141059244436005580000871045022161111595395010592444360056900008614450221611116040423105924443600837000085684102416111160553391059244436006820000863543023161111594126210592444360000000008684430231611119396636105924443600232000089444502216111195498661059244436002320000876252519161111886765810592444360023200008780475211611119146451)
 (.leaf 10592444360023200008833500201611113950469105924443600232000089435002016111142130771050544436002150000855550020161111636891910592444360018300008656525191611115828100105924443600192000086565251916111166241221059244436004670000863641024161111580659210592444360069800008977525191211115969334105924443600686142488945501816111161583511059244436000600000865570012161111654712810356444360002200008050700121611116153397100774443600021000084026751316111160841740957944436001860000705043023161111404410109579444360022100007935350271611114119743103984443600221000078543502716111190789091039844436002210000785435027161111381082410398444360002200005648450221611114335606)))
 (.node 2 (.node 1 (.leaf 10128444360019800008408390251611119299065105924443600232000086005002016111145396911059244436002210000846350020161111926139709817444360015703103966410240711113635061096044443600032042841914302307011134975550860144436001480000654341024071111580600608601444360011601915920410240711118451937097804443600055000038364102416111159589920978044436002730000793839025161111340657009171444360015700004244370261611118120507099194443600018000035444502216111133938340991944436000690000826657517161111342469709809444360000600004984450221611113720185098094443600704000085383902516111161417670980944436002930000883645022161111452537209809444360006000008595575171611114390580)
 (.leaf 9809444360006000007745575171611118551537098094443600016054081575251916111187781771017344436000110000730345022161111383411810592000360000200006776450221611114064211105920003600015000078384502207111159448931059244436006820000898645022121111455162410592444360079023638726475211201118806188105922183600824000041324302305011185925151059221836006640000254737026050111836913010592218360003200002560430230501115653034105922183600000000020354502215011155994711059221836000000191196545022100111841474210592111360000000003107450221001115623033105921113600000000037924502210011156939091059211136000000000346245022100111302780004679444360000000002933450221001115789062))
 (.node 1 (.leaf 4679444360000000003354450221001115753322047084443600000000037164502210011158606810492144436000000000328745022101111853047305027444360000000006033450221011114170891052324443600000000036564502210111133745410510544436000000000316445022101111591888105105444360000000005865450221011118357692049674443600000000064264502210111140140220467944436000000000549345022100111534961104679444360000000004080450221001115517669046794443600000000028584502210011131241970000058336000000000248045022100111325857300000583360000000002739450221001115261534026154443600000000028984502210011157007610261544436000000000474445022100111331876700000444360000000003366450221001118195216)
 (.leaf 1199444360000000003911450221001113137331038174443600000000050414502210011158935970381744436000000000395245022100111317064701199444360000000003304450220501115688778011994443600621000058093902505011138607010119944436007930000819241024120111670989001199444360079000007080350271201116731681011994443600771000071003702612011161922330426944436007140000509435027050111632382304269444360071400004884350270501115744860042694443600865000084983702612011136057300426944436008490000869741024120111356766502445444360084500006298450221201115767948024454443600782000036904102408011186655020244544436006230000330239025050111879150500000444360080700006575390250501118403857)))))
 (.node 8 (.node 4 (.node 2 (.node 1 (.leaf 444360083500007282430231201118038321000004443600867054088834302312011138189830000044436008790062887641024120111593696300000444360089000008905410241201115391799000004443600883000086514102412011148168360000044436005870000565429030120111368308706986444360061500007194450220501114975867051884443600682000075063302802011138085680489544436006820000712433028020111332556805884444360076600005416370260501113325568100724443600156000074865251907111157144920870744436004670000478050020071111385964608611444360020700004881525190711116463057088874443600111000048815251907111159763011034844436002210000839647521071111546369510328444360022100008370525190711115699243)
 (.leaf 7906444360033401894257450220711115763749099844443600824006146624502207111139979680968244436006170000837052519071111844605810066444360069800008513500200711115001731096574443600766030855644502207111183057071059236836006890426525145022071111837031310592368360079901898020450220711115605363105923683600799000078384502207111141190471059200536008370061775325032101111854990810592005360083701897285250321011115818252105920133600836116773432703110011190587591059200536007900766766135027100111470665210592007360068605388712430231001113910868096134443600714042687644302308011139695710903444436007993553901245022120111399097405134444360081924398962430230501120085840))
 (.node 1 (.leaf 9874444360089805389000450220801116755099096234443600875006188994502214011157097351008644436005172023897460016080111503721609913444360048600008964600160801115212585082704443600558364290095751708011165657860453644436006230000900860016020111863721807832444360058500005440450220711113910519078324443600689000040804502207111159499640914944436003840000474445022071111874369209149444360035700004974450220711115949052091494443600349000054404502216111159634350914944436003340000522145022161111408802509149444360030700006167450221611116107293097934443600170000080204502216111189533981059244436000640000846350020161111917212810592444360006900007028500201611119625055)
 (.leaf 10592444360010000008488450221611119278535105924443600019000090047001216111166131371059244436000210000902870012161111447813810592444360005500009007625151611113441770105924443600164000090035251916111143873461059244436001570000889847521161111610503610592444360005500008890650141611116751934105924443600232000090064502216111140702061059244436002320000896745022161111403068810592444360023200008020450221611118890999105924443600232000084384502216111158637491059244436002320000876345022161111601103710592444360041300008781450221611114212169105924443600567000085484302316111160767411059244436002320000886852519161111410532010592444360022100008555500201611114506325)))
 (.node 2 (.node 1 (.leaf 10543444360043100008513500201611115773552105924443600634000086415002016111163507261051844436006340308852052519161111581053010289444360044200008595575171611116180378101004443600170000084956501416111166355831007744436000020000796741024161111605867910526444360045000007938390251611113710488105264443600221000082743502716111135868221039844436002210000766135027161111460343010398444360015700008462430231611114106492101284443600215000083553902516111193397391059244436002320000841250020161111906227910492444360017000008641500201611118882502104924443600226000088004752116111190917511049244436002320000881845022161111914206810492444360046700008878575171611115910359)
 (.leaf 10592444360071400008169290301611116243344092334443600176018939664102407111139159740860144436001040000514543023071111614272909780444360011300005456430230711115696875097804443600055000069664102416111133549490917144436001131071448441024161111591635009171444360005526826565500200711118681401099194443600157000068853902516111132766260991944436002260000750257517161111410082609809444360002800007710430231611113915101098094443600060000084005751716111148447981017344436000600000774557517161111580795910592000360000521694904450220711114010141105920003600006030861444502207111138969131059200036000060000761345022071111423463610592000360000000007392450220711116390919))
 (.node 1 (.leaf 10592000360000900007135450220711114353212105921113600307042686703702612111187395961059211136002830538874239025121111412172310592444360023207668685370261211118969198105924443600349000087963902512111195135601059244436006890650900045022121111942082510592444360077130218993450221211119035355105922183600010000025964502205011133975291059221836000000000189945022100111567564810592218360000000001919450221001115541858000004683600026000018764752110011134403710467944436000000000304345022100111364643504679444360001700005156450221001118484178049214443600006000039624502210111157825430440644436000000000377045022101111543074505027444360000000002798450221001115682387)
 (.leaf 5027444360000000003421450221001118439431044124443600000000033204502210011158531710485744436000000000259645022101111366110604679444360000000002739450221001113441385051054443600000000028984502210111155813340467944436000000000453845022100111549870104967444360000000004080450221001113309728046794443600000000031624502210011131210120000058336000000000256145022100111807752600000583360000000002375450221001118106648000005833600000000022414502210011129537500000058336000000000262345022100111325027300000444360000000001950450221001113074882039434443600004000045664502210011185300290119944436000040000281245022100111542918603817444360000000004728450221001118450316))))
 (.node 4 (.node 2 (.node 1 (.leaf 3817444360000000004257450221001118311253011994443600000000026154502210011132106140119944436008350061829539025050111407986001199444360082400008223390251201115102360011994443600824006181924102412011147399990119944436007930000754239025120111601436804269444360069800005713330280501114099707042694443600870018988904102412011140877280244544436008320000662143023120111372335902445444360061301895687310290501115740145000004443600682000036793302805011189532450000044436007090000386633028050111600282900000444360070400003753350270501115942585063524443600704000039253502705011185575250635244436007820000550737026050111377179700000444360084203088342310291201115191357)
 (.leaf 444360066900007644310291201114890961000004443600517000056542903012011136830870000044436005830000556129030050111456762105030444360085800004904450220501115329019057184443600844000068914302305011149286190589544436007660000541637026050111332556809146444360022100004944500200711113526204090634443600069000048815251907111187326750864644436001570000480152519071111579570608263444360023200004981550181011115709352099654443600221000080204502207111147218791007144436002730000815752519071111331419609762444360041300008499475210711118263507079064443600837000029444502208111160031930790644436008360000440845022081111900595209984444360060500004827450220711115998082))
 (.node 1 (.leaf 9682444360011600604923475210711115762027097984443600617000053935251907111187777601059236836006210000790552519071111809769910592368360079900005338450220711115823090105923683600839000071612503210111150441241059200036008370000703525032100111934218210592000360083700006850250321001119029807105920113600837076268502503210011189894180893144436008440424884039025080111591906709265444360084207629017450221201115882539086484443601019116290124502212011164752941059244436011410000901745022160111584892604800444360068204249042600160201115854528082564443600540314789936001608011130142421041644436004671414903960016080111674594907516444360074200003811450220711115802828)
 (.leaf 7442444360074200003298475210711113744481091494443600714000040804502207111162818090914944436004670000451645022071111600128009149444360034100005958450221611115978133097934443600207000089314502216111138925381059244436001000000878145022161111590733210592444360001900008419700121611115038887105924443600048000090256501416111142757261059244436002070000896850020161111432052410592444360023200008528450221611114240857105924443600072000089874752116111161773541059244436000190000775370012161111953116810592444360036600008383450221611114019324105924443600232000088854502216111145431121059244436002320000888545022161111432036610592444360018600008118475211611116220675)))
 (.node 2 (.node 1 (.leaf 10592444360023200008383450221611115941977104854443600232000084384502216111164456861059244436002320000848845022161111898589810592444360056700008488450221611114373407105924443600232000087634502216111147980191059244436002570000854357517161111626643410592444360010400008543575171611115842270105924443600157000082445501816111191770321059244436001920000888250020161111456378010592444360023200008911550181611114430421105924443600232000087245501816111163934901059244436005920000871362515161111424180610592444360029300008730650141611116139510105924443600215000083566001616111190011851059244436001480000841860016161111924153910592444360021500008600500201611114192631)
 (.leaf 10232444360021500008513500201611118882972102324443600442000083964752116111162208470945544436002570000759455018161111414792310246444360043114148318550181611116025685100774443600247000078855002016111160152381007744436000690000783845022161111884072609579444360000300007454410241611115991492084024443600104000058654502216111137849961052644436001700000694841024161111593479210526444360010400006834475211611118713459103984443600072000063244752116111188263051039844436001130000651943023161111626725410128444360014800008118475211611114124650104924443600170000088665501816111191319201049244436002320000864150020161111909353310492444360023200008665450221611119073502))
 (.node 1 (.leaf 10492444360023200008665450221611119405212104924443600176000085665251916111144405431049244436000330000893567513161111576604610592444360022600008831550181611113532811105924443600682000081633302816111157277280964044436006690424705433028071111605731909640444360027304244310390250711114395745083314443600639116254163702607111187433820978044436001360000748043023161111633476609780444360022100005145430231611119209674102074443600322000083884102416111158624130980544436000320000781643023161111567445209171444360000800004257450220711115432102091714443600033042447174102416111182661440917144436000270000603743023161111870537209969444360004800006037430231611115707047)
 (.leaf 9919444360028300007938390251611118692852099194443600164000086415002016111160005310996944436000190000802045022161111354978909969444360001104247392450221611118771301098094443600060000082665751716111142574840980944436001760000841250020161111592402209809444360015700008448475211611115963365101734443600176000083705251916111162242981017344436000600000873957517161111631967410173444360001100007885500201611115965642105920003600005000061444502207111187680051059200036000080000761345022071111891065410592000360000200006776450220711114224987105921113600170125489624302312111194794641059244436007090877898645022121111625041210592218360081920728967450221201118873244))))))))
 (.node 64 (.node 32 (.node 16 (.node 8 (.node 4 (.node 2 (.node 1 (.leaf 10592218360082400004532410240501116051159105922183600856000032733502705011163587641059221836008580307332833028050111908482200000468360044200002596450221001118582269046794443600322000017305002010011137097050467944436000000000378645022100111362945704957444360000000003366450221001115779500046794443600000000030054502210111134533720467944436000000000258045022100111559947104679444360000000002304450221001115477405046794443600000000027014502210011152231730467944436000000000282545022100111565082904679444360000000003100450221011113234863000005833600000000023174502210011130443140000044436000000000404445022100111326133101199444360010000004015450221011113402211)
 (.leaf 1199444360000000004109450221001115650727038174443600000000036274502210011182055520119944436007090188288435027050111474888001199444360077100008471370261201115488385011994443600771000079383902512011191670210119944436006820000326933028050111581756301199444360068900004213330280501114283933042694443600689000031643302805011191569050426944436006890000326933028050111621317504269444360080300003406370260501114120292042694443600634000065043102912011159832630244544436007770000541035027080111359102102445444360062300006202330280501115855358024454443600656000046153302805011140513280635244436006430000571333028050111431692106352444360077700005248310290501115883760))
 (.node 1 (.leaf 7623444360066900005248310290501114281017000004443600517000055612903005011154521550874844436001070000506955018071111530138109259444360023200007639475210711115905324087974443600033000048625002007111159910250801344436002210000430555018071111588738607959444360023200004164550180711114488517099624443600221000080204502207111150125470778044436008030059498445022071111577239109682444360005500005078450220711113651633094934443600247000053564752107111158193491059236836008370000739245022071111616996610592368360083700007838450220711119486590105923683600839000085964302310111140936961059200036008480534784127031101111610264710592013360070900598341330281001114695953)
 (.leaf 10592444360069805348528350271401116166008105924443600844221188403902514011161973861059244436008072908901745022120111547627110592444360114100009017450221601114820786105924443601100000090174502216011162227181059244436011410000901245022160111584650909375444360057619488985600160801113831285095324443600467362390366001608011162294751059244436007080000903960016080111646050709513444360060100005411550181611113325568079734443600558000047644752107111138155870914944436004670059451645022071111635995709149444360022600006884450221611118751741105924443600164000084384502216111162201281059244436001000000871045022161111607006610592444360011600008781450221611116254683)))
 (.node 2 (.node 1 (.leaf 10592444360010000007820450221611115900307105924443600026000068866501416111145978761059244436000570000899165014161111622855910592444360028300008528450221611114422069105924443600226000085734502216111147385721059244436000280000889260016161111879403610592444360019800008227625151611118728944105924443600366000084884502216111193367891059244436003660000881845022161111391379110592444360036600008781450221611118452489105924443600341000088014502216111185881461059244436002320000881845022161111878775710592444360023200008836450221611114798499104854443600176000080984502216111144401361059244436002320000843845022161111669925210592444360023200008438450221611118685939)
 (.leaf 10592444360024700008317450221611116336921105924443600019000081307001216111146930221059244436000190000813070012161111596967110592444360032200008566525191611114743800105924443600221000083185501816111144678841059244436001640000867155018161111624075610592000360022600008743500201611116163518105920003600221000076935251916111146778840937744436000720000653547521161111436549710077444360018300007408475211611115951513083684443600183000065354752116111189142820926044436000110000588447521161111462989809260444360006000006120525191611114310974103984443600055000065075251916111142183551039844436001000000830252519161111603287010128444360003200008037575171611116248924))
 (.node 1 (.leaf 10492444360002000008746675131611113794732104924443600186000084905501816111187325801049244436002320000852052519161111605865910492444360023200008600500201611115859265104924443600198000088685251916111161396731057744436000330000897067513161111392038010592444360022600008780475211611118494394105924443600170386188136001616111160921551059244436002323495886460016161111586393509640444360050500005701370260711114175807088644443600226000044004102407111185170910833144436001830000565341024071111391292409805444360030700007432390250711113591847100594443600144018739664102416111158716131005944436000240000283545022161111570191509809444360000813237731450221611118572407)
 (.leaf 10413444360001800007303450221611118652243098094443600017000081914752116111188333390980944436000240000839647521161111579734109809444360002400007805525191611116019408104134443600022000052325251916111157539601041344436000130000482745022161111594886110173444360001100004827450221611114160811101734443600021000083834502216111160902691041344436000080000749645022161111869357810173444360000900006776450221611115905561105920003600002000055854752107111142630401059200036000000000773145022161111429400210592000360000600007613450221611116268550105920003600334000086253702616111162055131059244436003660305872539025121111454006810592218360076619488993450221201116110107))))
 (.node 4 (.node 2 (.node 1 (.leaf 10592218360083504234822370260501116133691000004683600192000025774502210011135357350000046836001920000208047521100111815612110592318360017000001662475211001118302053000004613600004000017624502216111156018600000058336000000000371345022100111333481200000583360011300003651450221001118448221000005833600033000039234502210011150997710119944436000000000377145022100111580237101199444360000000003459450221001113327713011994443600842148485684102412011147144090119944436007900305760837026120111506111401199444360077100596543370261201116194541011994443600704000042673502705011160169380426944436007420000421333028050111621392404269444360068200006327330280801118879611)
 (.leaf 4269444360076604238189310291201114314170042694443600689000051863302805011145000090244544436006820000461533028050111455831302445444360077100005805330280501119556351063524443600689000041903302805011191520120635244436006430000429231029050111618335706352444360069800006714310290501114147689063524443600627000058283102905011163786820673844436006230000429231029050111414908407316444360079700007853390250501116409168064104443600660000062223702605011167210280935444436001460000722945022071111570644608797444360021500004152525190711113876675082084443600215000044765501807111159568340873844436002210000466245022071111529715309310444360022100005078450220711115000258))
 (.node 1 (.leaf 10558444360022100006423500200711115861106097624443600558000082634752107111185902000790644436008240000556445022071111847644407906444360083700003656450220811116065401079064443600836000033044502208111159279900968244436006390000507845022071111554222309407444360011600005408450220711115712377105923683600072206147444502207111141347301005444436003840000558547521071111394477810592368360057600005127500200711115964398105923683600623000077815002007111159368161059200036008370000713545022071111908352810592000360083700007135450221011116332559105923683600839000083834502210111149886431059244436008700304848931029120111623795309639444360062109688993600160801114782676)
 (.leaf 7809444360057623849001600160801116141909078094443600528400090086001608011195249670966144436006052663904260016080111631971205893444360062301863304450220811113325568059794443600682000036564502208111133255681059244436002730000601045022161111332556810351444360068603045788450221611113325568090774443600293000056624502216111141091480797344436002210000474445022161111914321509149444360017000008818450221611114222121105924443600148000088724502216111160094180914944436001920000852845022161111890521310592444360002800009008600161611115422839105924443600022000078466751316111159519041059244436000190000898070012161111691860510592444360002600009005675131611114488975)))
 (.node 2 (.node 1 (.leaf 10592444360040000008944450221611114621159105924443600232000088184502216111141371621059244436000190000901170012161111576869710592444360025700008463500201611116260959105924443600366000084884502216111161185781033044436003660000848845022161111617479410592444360023200008432525191611116426233105924443600366000088184502216111144079021059244436003660000880145022161111881813410592444360030700008815500201611114647886104314443600357000086144502216111186704251043144436003410000852845022161111601382010431444360024700008801450221611116188751104314443600232000087814502216111190576571059244436002320000848845022161111879270610592444360002600008241450221611116014155)
 (.leaf 10592444360002600005338450221611115727260105924443600008000049044502216111158139201059244436000130000490445022161111609652410592444360013400008098450221611116099125105924443600207000082085002016111151181471059244436001130000892755018161111606257610592444360022100008915475211611116303460105924443600019000090337001216111191392241059244436000190000903770012161111861490110592444360001900009033700121611115940814105924443600019000089697001216111161321831059244436000190000898070012161111607062310592444360004800008264675131611116098508105924443600226000083385751716111147005601059200036003220000822852519161111418153110232444360019800007995525191611116125076))
 (.node 1 (.leaf 10592626360033400008476525191611114192764093774443600019000069844752116111160948340992844436000640000801555018161111566116008803444360000600003501475211611114130232092184443600003000033164752116111188143800817344436000000000272145022161111578960809260444360001100004780500201611114545270092604443600064000065075251916111139592601039844436001040000698752519161111626948110128444360014800007091500201611114853600101284443600033000079206501416111199861171049244436000190000811367513161111449199110492444360014800008595575171611114557569104924443600104000085665251916111140370291057744436002320000887760016161111595273810592444360022600008780475211611114505585)
 (.leaf 10592444360034900008813600161611116181660105924443600807194584773502716111174525990964044436007770186722335027161111876313208864444360071900005002350271611115999630088644443600669086947183502707111160294180886444436003491059703639025071111399392009007444360032200006068390250711118988547090754443600021000055654502207111158614100907544436002260000712541024161111837502809007444360017000006891430231611115937919090074443600113000035894302307111159960980996944436000720000330445022161111360787409969444360006400007914430231611115820641099694443600005000076134502216111185104011041344436000050000713545022161111410338810413444360019800008325410241611118494770)))))
 (.node 8 (.node 4 (.node 2 (.node 1 (.leaf 10413444360001100008137500201611113945808101734443600016000077544752116111160725971041344436000220000761345022161111597098610026444360001300007731450221611115814072105920003600002000058654502216111160343981059200036000180000715247521161111468923910592000360002100008488450221611114632268105920003600021000082194302316111161201681059244436004861320879941024121111410938710592218360071400008262410240501119125085105923183600005000021254502210011134226940000046336000260000169845022100111568978000000463360000400001998450221001115684007000004633600000000027154502210011156805650401744436000000000420545022100111572867610592114360000000003467450221001113896078)
 (.leaf 10592114360000000003996450221011115490057046794443600000000037554502210111135469110467944436000000000400745022101111565424904679444360010400002991450221011113331223046794443600613000028584502210011134885210000058336000050000234245022101111561647600000583360000000002991450221011115068878000005833600000000034824502210111180601750000058336000060000336745022101111537989400000583360002800005179450221001115225380000005833600366000020914502205011189377330000058336000000000261545022050111351154000000583360041300004516450221001118343814000005593600004000032774502210011151920190381744436001040000330445022050111536139301199444360001300002307450220501115564532))
 (.node 1 (.leaf 1199444360071400002805370260501115676252011994443600714000022043502705011139061760119944436007140000471835027050111638687101199444360068900003976330281201119181918011994443600682000032693302805011139622410426944436007140000555233028080111402297304269444360076601866839330280501114447462024454443600682000048313302805011193241690244544436006270000410431029050111620697102445444360058500005960310290501114921182024454443600643000046153302805011149950500244544436006980000600633028050111907979606352444360063900003602310290501116060704063524443600682000042133302805011160981440670144436007900000428635027050111439775105991444360063100005456430230501115974892)
 (.leaf 7335444360079700007853390250501116409168085514443600447000064834102408011133255680839544436000400000586545022071111405684508577444360000000005865450220711114056845104184443600232000053055002007111142816791058044436001980000473655018071111600370008475444360019800004736550180711116155587105924443600221000066524502207111166593980790644436006640000540845022071111901402407906444360083700003656450220811114295747075984443600704000035014752108111160617660759844436007790000331647521081111884291107906444360083500004257450220811116089145079064443600714053150784502207111187164681059236836004500185517345022071111380586810592368360036600005564450220711114021296)))
 (.node 2 (.node 1 (.leaf 10139444360006900008241450220711115501512100374443600157000083834502207111188374971003744436001980000564845022071111585255510592368360005700007865475210711118954591105920003600686000069664502207111143983171059236836008442103863641024101111425450310592000360082403038111290301011113631418105924443600849114886043502714111160794531019044436006053838903260016080111582967509838444360054937819021600160801115233334092514443600486175490396001608011160857750704144436006040000294445022071111332556807199444360090400003811450220711113325568071604443600517000033044502207111133255680750144436006820303395245022071111332556806797444360061700004484410240811113325568)
 (.leaf 9091444360077106435864450221211113325568098954443600617000054084502216111133255681059244436006170057601045022161111332556809149444360036600008573450221611114138398105924443600400000087814502216111187476791059244436003410000896745022161111593934710592444360033400008801450221611119023193105924443600060000083025251916111148340041059244436000260000900062515161111420514310592444360002500009011700121611115059561105924443600019000082847001216111157480031059244436003660000876345022161111440029610592444360023200008573450221611119245452105924443600232000088724502216111194773901059244436002320000891645022161111649933110592444360029300008957450221611116172860))
 (.node 1 (.leaf 10592444360033400008957450221611116328055105924443600307000089685002016111142669841059244436003340000833447521161111610598710330444360035700008626475211611114336759104314443600366000086144502216111162086911043144436003570000867847521161111651902710431444360002200008823700121611116104115104314443600019000083567001216111158119871043144436000250000802667513161111438139410431444360022600006884450221611114423620104314443600221000068844502216111143692331043144436001440000566447521161111415396510485444360022100008174450221611114367039104854443600232000059304502216111165308901059244436001440000844355018161111642730510592444360022100008915475211611116466051)
 (.leaf 10592444360002400009018675131611115968547105924443600198000089575002016111143119201059244436002320000889945022161111603842610592444360001900009044700121611116646356105924443600020000090497001216111192537841059244436000190000905170012161111587770610592444360001900009049700121611118800798105924443600019000090417001216111184773881059244436001920000868857517161111667581010592444360023200008354500201611114962162105920003600257000085845501816111145768501059200036000150000492347521161111439947609631444360000600004681475211611113545516092324443600226000073605251916111155183990748944436000190000284747521161111574141209260444360002500003706550181611119326637))))
 (.node 4 (.node 2 (.node 1 (.leaf 9260444360002800006147550181611116109976103984443600134000067925251916111157463081012844436000600000698752519161111427290410128444360002600007846675131611115742190104924443600019000079416751316111156588571057744436001440000860460016161111422276110577444360020700008476525191611116095178105774443600144000085035751716111162361511049244436001830000856652519161111601668510577444360010000008671550181611114436369105774443600207000089096001616111160888521059244436002320000892460016161111931304410592444360020700008636410241611114708860088644443600639086454163702616111144921660900744436006390000701937026161111458166509007444360029300005809390251611114160974)
 (.leaf 10592000360019800003757430231611115743818100594443600283000075674102416111158840221005944436000720000457745022161111870882109969444360006000004744450221611115846784099694443600113000050784502216111158019871055644436000640000821943023161111592375910413444360003300008219430231611118762632104134443600009000061444502216111187049871041344436001160000821943023161111402570110413444360000600007392450221611114598034105920003600232000086533702612111141809991059244436000190000901462515161111671224810592444360004819908965575171611115110775105924443600019114889736251507111157251421059221836000200643650557517121111446507910592218360068603038986450221201116340513))
 (.node 1 (.leaf 10592218360082401858976450221201116122891105922183600803000044424502205011141324431059221836007770000316445022050111585743300000461360082500003287450220501113608147000004443600000000020784502210011156158890000044436000000000159045022100111824306210592114360000000001301450221001113651603105921143600000000041564502210011137751260598244436000000000587945022100111636360604679444360000000002231450221001115281330025084443600000000019754502210011153185651059244436000000000167245022100111335703710592444360000000003072450221001115691419000005833600000000031984502210111134175240000058336000020000240745022050111858601700000583360000400002721450220501115415441)
 (.leaf 1199444360019200003952450220501115731895011994443600698000070543302805011160475960119944436006980000518633028050111652086901199444360068900003976330280501114022490011994443600704000039763302805011187788950221644436007140000448835027080111904481704269444360068200005427310290801119138033042694443600682000057373302808011191737540426944436007420419727035027080111534228604269444360068200004384330280501116245979042694443600639000062733102912011187613920426944436006640000580533028050111441992802445444360066900005305330280501114419947024454443600643000043843302805011143844260635244436006890000233433028050111607794008234444360080700005510310291201115901912)))
 (.node 2 (.node 1 (.leaf 5202444360068200007302310290201115857342053454443600682000074483102902011166304180840744436000400000586545022071111472475109804444360000000007731450220711115392659083254443600157000044565251907111161848520816144436002320000447655018071111570406610592444360028700007947450220711116080887075984443600837000044084502208111158870991059227236008280056396347521081111417123810592368360083500004408450220711118875595105923683600771000044084502207111144037181022544436003070000831745022071111855460910592368360010400008781450220711116016807098944443600033000082414502207111140188881059200036007420184749645022071111390480710592000360084200008711410241011115937879)
 (.leaf 10592000360086715438205310291011118586531105924443600766005687124302310111141569411059244436008372370868537026121111886099409838444360046738349008600161401114419596099384443600528244789856001614011159650450927044436006230184904260016080111595381510592444360076621909039600161401114635677066354443600904000029444502207111133255680517344436009040000348945022081111332556809097444360061700005029410240711113325568097894443600617000054214102407111133255681059244436006170000905270012161111589392410592444360048600009008500201611116222490105924443600069000088184502216111158230551032244436001340000852845022161111576182010322444360041300008317450221611114393776))
 (.node 1 (.leaf 10592444360038400008528450221611114029889105924443600157000084346251516111150558741059244436000330000899867513161111518529210592444360001900009033700121611113691119105924443600019000090447001216111152266041059244436002830000888545022161111431744110592444360036600008801450221611116200269105924443600366000088724502216111163310201059244436003660000888545022161111938638710592444360034900008853450221611116149257105924443600366000089314502216111189947481059244436001640000891645022161111437535910592444360034900008872450221611118775494103304443600028000079466751316111154964901033044436002930000776750020161111925478310431444360019800009016550181611114808218)
 (.leaf 10431444360023200008781450221611114691916104854443600232000058644502216111161260481032544436002320000564845022161111472941210592444360023200008488450221611114947453105924443600232000090124502216111161340751059244436002320000891645022161111908750410592444360023200008885450221611116296880105924443600019000090287001216111152910081059244436002320000870852519161111431264010592444360023200008626475211611116392245102624443600283000085135002016111162165751059200036002320000878047521161111491674810592000360010400007976500201611115134306105920003600000000047444502216111158780811049644436000320000799552519161111398965809379444360017000005048525191611114730835))))))
 (.node 16 (.node 8 (.node 4 (.node 2 (.node 1 (.leaf 9933444360000300004296475211611113695349089044443600100000047805002016111159578890926044436000080000367047521161111606259709260444360002200006688500201611114527942101284443600069064071215501816111161381031012844436000260000770565014161111672615510128444360001900007846675131611119906306104924443600022000079856251516111156820531057744436000170000488465014161111965413810577444360002413946620525191611119732343105774443600116000071985751716111156396131059244436001440056885247521161111488106110592444360074200007763350271611115524978088224443600799000044223502716111156191810886444436007040000583535027161111430112009007444360060100005701370261611114373765)
 (.leaf 9307444360045000004187390251611116303343104654443600771000044223502716111160531661005944436004130000455941024161111430101310059444360013600008152430231611118573604100594443600019000047444502216111185768371005944436001760000786547521161111574353510059444360019200007428500201611115646781104134443600032000078164302316111141838501041344436000080000713545022161111392139710413444360002700008743500201611115774285104134443600027000087395751716111161762211041344436000150000831855018161111674254110413444360000700007547500201611118720304100264443600000000077314502216111188644191059200036000000000586545022071111901720810592000360000000004904450220711114161742))
 (.node 1 (.leaf 10592444360018300008931450221211116609585105924443600019000088916251516111157203901059244436000210000900062515161111499641510592444360001908588973625151611114368695105924443600019000089846251507111150707251059244436000190528900062515121111995275310592444360001906408924600161211116612865105924443600020000058555251912111159885681059221836000600000594141024121111884355810592218360014409595941410241211114290658105922183600634000079144302305011162991371059221836007040000636143023050111954902410592218360083516193735475210501115998294000004443600413000030084502205011156590270000044436000240000182445022100111559779110592218360001900001897450221001115322910)
 (.leaf 10592444360000000001524450221501113277715105924443600018000022114502210011153122821059244436004420000220045022100111543987510592444360006000002241450221001118449172105924443600025000021524502210011155702801059244436000690000317945022100111363723000000626360021500002872450220101116549888000006263600682000033044502205011196216100000058336006820000395345022050111387700300000559360006000003656450220501115714699000005593600134000036564502205011157377150381744436000040000342145022050111395590001199444360063400002516330281001115913617011994443600656000035613702605011188069410119944436006980000461533028050111891320301199444360068900005552330280501114545408)))
 (.node 2 (.node 1 (.leaf 1199444360069810526074350271201118851538022164443600682000050473102905011159904910426944436006860000367933028050111489301004269444360061300005687310291201114831204042694443600664000069553102908011143748750244544436006270000683933028050111441414502445444360063900005876310291201116011949057984443600664000039763302805011160990440579844436006890000316433028050111441081305798444360069800004384330280501119107315051534443600698000024263302805011161459980515344436006980000326933028050111897835207413444360068200003866330280501114229736089324443600682000069553102914011178141290959944436000650000773145022071111568911210397444360001400008317450220711115730600)
 (.leaf 10580444360002800005864450221611118884007103064443600232000046995002007111143475270835344436002320000464655018071111640235010592444360022100009017450221011116793820105924443600232018390174502207111169370300759844436005051049893145022121111607977110592272360080700004597475210711114163638104374443600322018385284502207111159442451022544436003840000773145022071111590325210081444360006400007731450220711114592891105920003600018000077314502207111137945491059200036008441049863339025101111868334510592444360066903008884475211011114498768105924443600467388390396001612011177370830993844436004673428903660016080111603593110261444360083731869048650141401115869290))
 (.node 1 (.leaf 10592444360034100008614450221611114223566105924443600366000069974502216111146841151059244436004130000866545022161111464137110592444360040000008916450221611116066341105924443600022000064166001616111147606001059244436000030000566447521161111610301210592444360000800005588575171611114078946105924443600019000090237001216111132899651059244436000190000904970012161111472208510592444360036600008986450221611116177021105924443600357000089674502216111159462501059244436003660000889945022161111647282210592444360036600008944450221611114215793105924443600366000089674502216111188887871059244436003340000887245022161111613313310330444360022100007844525191611115436779)
 (.leaf 10431444360033400007795475211611116218883104314443600186000066395501816111151240551043144436001700000726357517161111855003610431444360002000008050700121611119077334104314443600019000079617001216111158061761043144436000060000000000003161111514459010592444360000600000000000031611119562692105924443600232000057884502216111147987341059244436001700000902552519161111610862910592444360002700009048675131611115051763105924443600226000090134752116111162060901059244436002320000899345022161111597526710592444360001900008997700121611114251874105924443600134000084826251516111140528341059244436001830000837052519161111528794910592000360018600008656525191611119295483))))
 (.node 4 (.node 2 (.node 1 (.leaf 10592444360023200008448475211611116065978105920003600221000080825251916111148307851059262636000020000382147521161111863406710274444360016400008338575171611115657666089044443600008000042964752116111141918930919144436000110000457745022161111600933709191444360002100006221500201611116128953101284443600060000068745251916111162899471012844436000280000655957517161111482392710492444360002000006317575171611114889741104924443600148000053016001616111162611101049244436000280000471552519161111927035810577444360002700005144525191611114292673105774443600207000075046251516111147060521057744436001160000862865014161111401029010577444360044200008864600161611115967303)
 (.leaf 10592444360018300008849525191611119151718105924443600060000084765251916111189324591059244436000640000856652519161111420519210592444360087505278914500201611115981148101644443600779000070803502716111158822300936744436006820000638435027161111447803709007444360071400004422350271611114681019105920003600060000043234302316111144434111005944436003660000856841024161111422070510413444360001000007613450221611113762803104134443600005000078384502216111189273731044244436000000000749645022071111626706109946444360000000005865450220711116309603105924443600055000088515002016111190911341059244436000220000898560016161111547304210592444360021500008764430231611118984290))
 (.node 1 (.leaf 10592444360002101837839600161611116435059105924443600019000078666251516111161529821059244436002930300895652519071111456643410592444360002000008964600161211114794396104544443600028000063005251912111140618501059221836000210000533845022121111442109510592218360082400558976450221201119366151105922183600824052790004502212011204391631059221836007900955878145022120111969650510592218360061300008573450220501116507348105922183600790000065094502205011159469581059244436004230300233647521050111386810010592444360070900002739450220501115713110000006263600634000034794302305011155160340000058336006270000487543023020111583741200000583360069800007050430230201116303924)
 (.leaf 583360066400004717410240201114781349105924443600341000037574302302011191365200381744436000000000490445022050111580003401199444360070900004422350271201116040026022164443600714000046453502705011146715520221644436007140055633335027120111629099904269444360071400004384330280501114433350042694443600617000063273302812011151273300426944436006860000627331029120111625705204269444360071400556564330280801116202213042694443600664000053053302805011192548670280844436006690000530533028050111620580602445444360063405277607330281201114147765024454443600656000059003302805011144516710244544436006560000483133028050111617896402445444360069800005769350270501116055744)))
 (.node 2 (.node 1 (.leaf 5798444360071400004190330280501114598306055164443600698000031333302805011153486500578944436006820000438433028050111623266307830444360078200005285330281201116046852059554443600766000054163702605011133255681059244436002320000861445022071111551555510306444360023200005008475210711114973528091334443600069000035285251907111193876380836544436002150000464655018071111538007110592444360041300008763450220711115625015105923683600293000047444502207111141172711011744436006230000843845022071111543443010081444360019800008241450220711116247143097244443600026000076134502207111161005621059200036001640000761345022071111856407710592000360003300007392450220711115628197)
 (.leaf 10592000360077908487838450220711115706156105920003600837018179344502207111187795551059200036008350181809845022101111436345810592000360076600008852475211011115991836105924443600669000090156001610111144939150861444436009573867904865014140111622361210592444360079926089006450221601115508009105924443600799000090004502208111151183461059244436007990000900645022080111460587906807444360079900008986450220211115141677105924443600366000089164502216111163560131059244436003660000771845022161111424446010592444360036600007909450221611114157745105924443600113000064545251916111145097691059244436000260000650850020161111603721210592444360000000006399450221611116117000))
 (.node 1 (.leaf 10592444360000000006143450221611119042398105924443600000000063644502216111158796801059244436000000000623445022161111437347310592444360001900009017700121611113346736105924443600505000089574502216111190670391059244436001860000782045022161111429021110592444360034100007658475211611119137195103304443600505000056624502216111161956341033044436000600000635262515161111494673610330444360013400007888600161611114911541103304443600366000069974502216111148097701043144436003660000699745022161111508366810592444360002700008961650141611114008486105924443600221000085734502216111158145781059244436002210000899345022161111435989710592444360000600000000000031611115178046)
 (.leaf 10592444360023200005724450221611114892109105924443600183000090255251916111161439531059244436001130000903857517161111523972410592444360001900009033700121611114649340105924443600232000089864502216111142839371059244436000600000848262515161111894673710592444360022100008513500201611116025795105924443600215000083545002016111195089261059244436002320000808252519161111939836610592000360001500004681475211611114105793088504443600007000044214752116111156010760930944436007140000496252519161111332556809404444360002200004421475211611114216864091914443600060000059245251916111187069171012844436001160000712155018161111603713010128444360002800007225525191611119095309)))))
 (.node 8 (.node 4 (.node 2 (.node 1 (.leaf 10492444360003300006972500201611114192578105774443600019000053055002016111146467191057744436001830000541155018161111423420910577444360002700008243650141611116429674105924443600026000083964752116111147435191059244436007990000849055018161111660547409992444360080300006931350271611115731543098594443600803000068583502716111158084621032444436008030054722335027161111580040610592444360080300007935350271611115737067105924443600799000073393302816111146270951023044436003630000681735027161111590926809289444360000500004577450221611114567000097464443600000000042574502216111164945131005944436000160000468147521161111586373910059444360001400004764475211611115848880)
 (.leaf 10059444360004800004923475211611118588178100594443600024000076675002016111159344581042044436000040000715247521161111622665610420444360000000007303450221611116035673104584443600000000077314502216111146097881045844436000000000761345022161111456720010413444360003300007997430231611114253479100264443600009000079344502216111145597161059244436000200000883062515161111654463610592444360004806358833500201611114898581105924443600033000088975002016111160865141059244436000190000661060016161111617016910592444360002100007733625150711114834138105920003600322000076265251912111158725651059200036005760000760245022121111875835710592444360041300007685500201211116074479))
 (.node 1 (.leaf 10454444360007200006202500201211114233522105925463600682264188724502212111159178581059254636008030054880145022121111911896610592218360062700006270450221211114205124105922183600825041390064502212011164912041059221836006210181881845022120111600108810592218360070400008174450220501115869549105922183600567000077544752114011158667051059221836006432508839647521140111586439610592444360068900008412500200201116466578000005833600627000084994752114011159129190000058336008420000679041024020111909712510592444360071400004400410240201116047626105924443600413000060374302302011150744300119944436000000000288543023050111437213401199444360001100004257450220501113914722)
 (.leaf 1199444360051700542549310291201114899430042244443600669000036373502712011187777940221644436007900000340637026120111472640002216444360074223567080350270801114719983042694443600686000060883302812011163373660280844436006640000483133028050111465937202808444360071400005399350270501119279013057984443600689000043843302805011147825820579844436006860000386633028050111612460105516444360074200003679330280501114298110075304443600839000051863302812011157224650524244436006820000730231029020111514443708453444360019800004293525190711114974962085664443600192000047365501807111152743301059244436002830000894447521071111544820707642444360059200003821475210811116001816)))
 (.node 2 (.node 1 (.leaf 7642444360068200002730475210801115920916105922723600742000036704752108011159180511059236836005580000410945022081111592544910592368360006000005173450220711115852290102254443600540000088184502207111161359270920544436004500053861445022071111630794209205444360001300007496450220711115932393096474443600003000076134502207111153788401059200036001700000793445022071111909246010592000360083700007838450220711114117760105920003600835000084164302310111145240801059244436008320180902347521101111593088810468444360087600009051675130801115911734083914443600885299790516751308011160004830758844436008960845905167513140111597291606555444360109200009033525190801118738986)
 (.leaf 6261444360104341339041575170801115749154105854443600799000089574502208111148093891059244436001980000866545022161111569268410592444360036600008614450221611118522938105924443600366000064264502216111188315551059244436000000000673745022161111585477110592444360000000005564450221611115812605105924443600000000058644502216111159363311059244436000000000661045022161111596834410592444360000000006678450221611115989833105924443600015000066784502216111162049861059244436000110000658547521161111482655010592444360006000006563525191611115870541105924443600000000063324502216111160630821059244436000000000607145022161111892707210592444360000000006207450221611115818192))
 (.node 1 (.leaf 10592444360000000006173450221611115803121105924443600002000065344752116111143325751059244436000190000905270012161111328867210592444360002500007769450221611115134103105924443600322000069544752116111146484631033044436005400000478050020161111520373010330444360030700005865450221611116224035104314443600549000068134502216111151174191043144436001040000688665014161111691218910592444360000200008396475211611114419631105924443600136000090105501816111148377151059244436002320000578845022161111470886610592444360023200005788450221611115065367105924443600186000090195002016111162377401059244436000250000899067513161111587612710592444360001900008934700121611115585969)
 (.leaf 10592444360001900009051700121611115630060105924443600020000084727001216111143048341059244436002150000830252519161111617585610592444360011600008455575171611115735600105924443600232000084994752116111188481381059244436002320000858847521161111612988410592444360018600008370525191611119364733105924443600232000084484752116111160419181059244436002320000839647521161111585552010592000360000000007613450221611114246700091884443600000000041094502216111141778361046044436000000000556445022161111518443008941444360000000003876450221611114383375091914443600014000041395002016111159457230919144436000110000622150020161111607316309191444360002200006688500201611119089099))))
 (.node 4 (.node 2 (.node 1 (.leaf 10577444360001300005429475211611114481741105774443600157000054645251916111158690321057744436001640000565755018161111547627210577444360014400005570550181611115629877105774443600113000075695251916111149122271057744436001160412833857517161111438796910592444360023200008622550181611116076199105924443600186000088685251916111155906051059244436000210000869450020161111499537810592444360023219738897500201611116350277105924443600891000089394302316111155630850843244436000000000425745022161111588545710592444360076600007559350271611116614628097464443600170000053584102416111198864721053244436002730000703639025161111639802510592444360011600007454410241611116133538)
 (.leaf 10592444360003300007386430231611119168343105924443600006000073034502216111160768471042044436000170000773145022161111895754210458444360002200008020450221611114652892102294443600028000078164302316111159247600994644436000000000696645022071111470748710592444360001700008892600161611115114206105920003600009000088945501816111200043521059200036000190000893762515161111922506610592000360002100007588625151611116418399105920003600450000076855002012111158544161059200036003840000601045022121111434521310592546360050519206071450221211114703946105925463600742000073214302312111143895661059221836007711795900747521120111637032110592444360084915289020525191201119445979))
 (.node 1 (.leaf 583360047700006298450220201114965440000005833600779000053584102402011159460781059244436007790000303741024020111475554310592444360062300007454410240201115028784045454443600007000036564502205011154582160422444436004860000356933028120111456197202216444360068600006455330281201116200097042244443600704041254603302808011162590560422444436006860053438433028080111626075604269444360065606344725310290801115992566042244443600605000054273102905011193167070426944436006430000605331029050111922075704269444360068200004941310290501115006562042694443600704000031643302805011166485330426944436006980000348433028050111917457504269444360068900005805330280501116323520)
 (.leaf 4269444360068200003718310290501116167972028084443600669000041043102905011147463400280844436006890000539935027080111609161402808444360071400005399350270501115450935057984443600682000042503102905011146827770769044436007860000531435027120111540996110592444360068200008392310291201115894815105924443600232000081184752107111151396350785844436001480000385252519071111574719908650444360012200004736550180711115532170105924443600431112789584752112111151207730949044436006860000469235027081111913264310592000360060100003821475210811114854155092054443600004000042574502207111163807881022544436003840000817445022071111578583310225444360068200007838450220711115836592)))
 (.node 2 (.node 1 (.leaf 9205444360082405208241450220711114879591105924443600870000084983702610111146081391007044436008982026905167513080111539618706555444360104100009041575170601114239038064024443600799000089444502202111153383100933044436002630000894445022021111479703810592444360000000007495450221611114502443105924443600005000061734502216111159547411059244436000140000642645022161111606194810592444360000000006697450221611115016612105924443600006000065854752116111162278201059244436001700000658652519161111583019610592444360000000006484450221611118955006105924443600001000065634752116111162441161059244436000190000905170012161111412192110592444360036600005221450221611114314334)
 (.leaf 10592444360036600005865450221611119056437103304443600221000062984502216111158981621033044436000690000629845022161111914068910330444360007200005865450221611116191990103304443600215000068134502216111164913851043144436002470000688445022161111521290710431444360002000008655700121611116072809105924443600000000081184752116111144219441059244436001980000872647521161111902828010592444360015700008438450221611116166686105924443600232000053384502216111191560481059244436002320000525145022161111512245210592444360013400008400575171611115941209105924443600072000090426001616111160823441059244436002320000900747521161111615396410592444360006400009047625151611114788171))
 (.node 1 (.leaf 10592444360011600006874525191611115725570105924443600215000066414502216111164871551059244436002320000896850020161111601887110592444360006900009012675131611114041915105924443600019000090527001216111152056211059244436000190000905270012161111432551110592444360023200008539475211611119256972105924443600186000076215751716111192909491059244436002320000853947521161111932718710592000360045000008082525191611115910146105920003600000000045774502216111146230170929844436000000000410945022161111456071509191444360001700005078450221611114405370105774443600013000051964752116111144900991057744436000720000854357517161111897648610592444360034106328370525191611119355629)
 (.leaf 10592444360023201798443550181611114865898105924443600148000086496001616111151610701059244436002320000888250020161111652394510592444360033400008914500201611116257033105924443600980005286953902516111160648020794644436000050000343147521161111619165610592444360080700007763350271611117032940103994443600803000072233502716111160986731059244436006980000755935027161111623573510458444360000900008174450221611116073748105924443600017000074964502216111146286151059244436000150000739245022161111605459210026444360000000007613450221611115807545105920003600000000080984502216111161196211059244436000190000877162515161111540032310592000360001900526076625150711115988707)))))))
 (.node 32 (.node 16 (.node 8 (.node 4 (.node 2 (.node 1 (.leaf 10592000360046700006207450221211114426338105925463600771000059304502212111147921101059254636006980000611943023121111422402610592218360068600006453550181211119076565105922183600824052090014752112011160139920848244436008562341901450020120111592007510592444360064300006641450220801115312677105924443600567000064264502208011165443011059244436006390000681345022020111951429500000583360064310356737450220201116264855000005833600643000066254502208011165722060000058336005400000831745022020111553526500000583360065600007710430230201116061756000005833600682000039664102402011157191530569744436008360000353441024020111913314105697444360068200007369410240201119774935)
 (.leaf 559360068200008049410240201116370129000005593600689000072014102402011147109550454544436001860052451645022050111374896701199444360001100005565450220501115778475011994443600100017950294102405011145725120119944436007090000482237026051111591431601199444360051700523202310290501116190048042244443600517000038883102905011162793800422444436005760000349831029080111488411104224444360070400005493330280801115228150042244443600634017953793102908011148293410422444436006820000371831029050111502477904224444360068600003446330280501115981958042694443600742000037943302805011146591190280844436007190000438433028050111513022010592373360068200005713330280501116234987))
 (.node 1 (.leaf 5798444360068605204615330280501116200380057984443600719052040633502705011159587190632144436006820000504731029050111919606505798444360070900003679330280501115488862092584443600766000065443502712011150411850779244436008100000504731029120111459270106027444360052800007302310290201117029004105924443600232000049234752107111147610160814544436002320000430555018071111487207010592444360048800009002500201211116242580092044443600825005179974302308111163006121059200036006860000331647521080111457655309205444360019800004123475210711114582486105920003600032000073924502207111158933441059200036000320734730345022071111595561109291444360001305196776450220711115720964)
 (.leaf 10592000360001000004257450220801114556377098554443600845000087294302310011144012261035844436008700000866841024101111457428610592444360068900008996525191011115292041048314443600898005190516751302111157102970848044436009340000905167513060111634914810553444360089814469051675131201115536938071004443600799000090004502202111157810221059244436007991215897645022141111439249409343444360026100008944450220211114954003064084443600799000089444502202111146479541059244436004420000876252519161111536410210592444360041300009002500201611116396081105924443600334000088534502216111188023721059244436000010000630445022161111909661810592444360000000006583450221611114748933)))
 (.node 2 (.node 1 (.leaf 10592444360000000006678450221611116051878105924443600021000067445002016111190951571059244436002210000794745022161111916099810592444360022100007947450221611116117800105924443600019000090377001216111188833201059244436000190000904770012161111539093510592444360036600009012450221611116180259105924443600366000077184502216111163161821059244436000060000000000003161111907021810592444360001500004662450221611115998142103304443600247000050784502216111148870181033044436005400000705745022161111485600310592444360016400006426450221611115738465103304443600000000049044502216111159595481033044436000030000688445022161111901907410330444360000000007358450221611115828860)
 (.leaf 10330444360000000006426450221611115982271104314443600003000065424502216111196902651043144436001440000850867513161111900595910592444360000200008263475211611119284445105924443600019000071086751316111158316311059244436000190000901170012161111624083710592444360001900009049700121611115543120105924443600221000085734502216111185921761059244436002830000838345022161111574310010592444360002800008628650141611119575135105924443600176000090216001616111146722351059244436001160000663955018161111940129410592444360023200006457475211611114694627105924443600019000090337001216111164793521059244436002150000848262515161111495150310592444360029300008490550181611114995299))
 (.node 1 (.leaf 10592444360019200008227625151611115348625105924443600232000086784752116111189163791059200036002320000858847521161111603398310592000360042300008208500201611118857286105920003600004000049234752116111145916220903544436001160000461650020161111410452609494444360000900004974450221611114952482091914443600013000049904752116111159050540919144436000160000525145022101111489761910140444360001400005276475211611119202783101404443600008000052145002016111159617261057744436001920000573055018161111430060110577444360022600006325550181611114402288105774443600186017886375751716111193265351059244436001860294844355018161111494897610592444360023200008387550181611116007647)
 (.leaf 10592444360019800008370525191611114930595105924443600192000087804752116111164856361059244436002070000848637026161111622803310592444360013600008438450221611116459463105924443600144000087576001616111160970741059244436001920178869450020161111629694310592444360022127198882500201611115156789105924443600698233588757001216111175158150838644436000190000350147521161111632941910592444360077900008220330281611116426524105924443600000000087634502216111162904381059244436000240000852845022161111576632610592444360010000008548430231611116248258105924443600060000086354302316111157508300975544436000000000730345022161111662835110592444360023200008846410241611115405250))))
 (.node 4 (.node 2 (.node 1 (.leaf 10442444360006900008462430231611116060856105924443600019000088306251507111154726491059244436000190000861862515161111650143710592444360001900008527625151611116453764105924443600576000062344502212111145396241059200036005050000617345022121111879642210592218360050500005477450221211114206712105922183600592000070863902512011160351571059221836006860519762750020120111609357810592218360068201788275550181201114852892105922183600669000090014752112011193377831059221836007900051900045022120111603904308482444360087004099000450221201119141820084824443600799000086144502208011195367130848244436006390000824145022020111649191208482444360070400006758410240201116177354)
 (.leaf 8482444360077900007608370260201115982677084824443600742000073533902502011168516420000058336007660000535841024020111665392808482444360077900005029410240201116355250084824443600904000036904102402011192969951059244436007900000412041024050111927246205697444360086700003065410240201115088748000005593600782000067584102402011148228450000055936006890000563939025020111532442004793444360003302943588430230501119010111049614443600442005147174102405011144964330119944436004500000557931029050111493555401199444360059200005157310290501119117762042244443600682000055103102912011194839580422444436006050051671431029080111664270204224444360068200005579310290801116276769))
 (.node 1 (.leaf 4224444360069800006202330280801116591892042244443600682000053793102905011148824590422444436006860000438433028050111626077704269444360068200003794330280501116043893042694443600682000054933302808011144632200426944436006820000461533028050111596224201993444360068600005493330280801115216452019934443600656000048313302805011162162110199344436007190000563235027050111963409302808444360041300005929350270201119286559028084443600322000056323502702011160163411059237336006860000419033028050111626989506941444360071400004329330280501114903240070854443600698000053143502708011163895580939744436008700000650231029120111573833209316444360082800006482330281201113405120)
 (.leaf 5815444360022613716885390250201119621174105924443600232000088854502207111157859441059244436002320000586445022071111501192408399444360018300004630525190711115879700086364443600178000048454502207111157091021059244436006170000904157517121111580611306763444360071400003670475210811114590920091874443600293040752514502207111157824040920544436008440407507845022071111396236609502444360045002937731450220711114259610092914443600025017673924502207111146151310985544436000600627713545022081111477357905440444360088900009051675130211115710297052744443600900000090516751302111160297221059244436008360000901245022160111512984610592444360082800009000450220801116063755)))
 (.node 2 (.node 1 (.leaf 6118444360079900008899450220211115437252105924443600257000084765251916111160120691059244436003660000897645022161111451346810592444360005700006332450221611114595993105924443600000000066544752116111160832741059244436000000000642645022161111604677710592444360001700006698475211611116306880105924443600221000079694502216111149244711059244436002730000801047521161111544904610592444360013400008074550181611118963362105924443600019000090527001216111199190481059244436000240000905270012161111950746610592444360036600009017450221611119285589105924443600366000073584502216111148303481059244436001830000765555018161111602170510592444360036600006939450221611116092294)
 (.leaf 10592444360001500005930450221611119185735105924443600009000058644502216111187008251033044436000140000586445022161111573113610330444360000600000000000031611118842067103304443600682000075504502216111160452781059244436003660000607145022161111580066110592444360014800006299550181611115835479105924443600015000060784752116111163984091043144436000000000629845022161111508409610431444360022100006976700121611119381550105924443600013000076776251516111151181241059244436000480000904062515161111645901710592444360025700008438450221611114687562105924443600011000076304502216111151598371059244436000190000828470012161111583524710592444360001900009017700121611115727197))
 (.node 1 (.leaf 10592444360017600008338575171611115003135105924443600232000089856001616111164332271059244436000190000835670012161111517881010592444360002400008561700121611115277310105924443600226000083746251516111164233591059244436002320000846860016161111639055410592444360023200008649600161611119608795105924443600186000085276251516111155357101059244436002320000881647521161111522840910592000360023200008283500201611114669748105920003600366000051445251916111142827370985144436000040000426947521161111441933110403444360076600005564450221611115936800083154443600004000035014752116111159772260868844436000000000354445022161111587456808688444360000300003554475211611119035659)
 (.leaf 9191444360000800004597475211611114878512101404443600016000054294752116111162038831014044436001160000554652519161111889521210577444360000600005690500201611114247956105774443600134000052735751716111158272101057744436001340000504852519161111576756410577444360021500005794550181611114621271105924443600322000074335501816111147949781059244436002070000854357517161111452268010592444360022140708383450221611116184854105924443600136000086565251916111190932031059244436001830000886557517161111509472310592444360016400008694500201611114999127105924443600028000089506501416111148539121059244436000200000889260016161111628362610592444360079904078996525191611115925958)))))
 (.node 8 (.node 4 (.node 2 (.node 1 (.leaf 10592444360055800008709700121611115503666104324443600334000083036251516111164716590881444436000070000412347521161111624096910592444360055840238763410241611115105280105924443600064000087284102416111159766241059244436000200000848262515071111679676310592444360001904078667625150711116124936105924443600450000086945002012111147749581020144436004420000572445022121111872741110592015360018300004984450221211116213398105925463600803017654774502212111147515011059221836006820000723545022121111471223410592218360046700007099370261201114832241105922183600714017665992703112011156790671059221836006820176781952519120111569664210592218360068201768156525191201114400189)
 (.leaf 10592218360064300007918475211201114588419105922183600698083788164752112011160700361059221836007140176784547521120111640869310592218360068901768007500201201116041655105922183600639000074954502212011159792971059221836006690000739550020120111580641108482444360087004079012450221201116254268084824443600836083789764502212011194790850569744436008880000502941024020111586390005697444360068200008123410240201115242124000005593600771000064834102402011161378900000055936008360000690141024020111600043000000559360054900003569330280201114165761041314443600585000031023302805011189041750496144436006430000471835027050111611689801199444360062100004469330280501114284777))
 (.node 1 (.leaf 4224444360060100007021310291201116089976042244443600656000047793102908011152881740422444436006980000541035027080111516127107481444360069800005632350270501119168811074814443600682000041903302805011161120810199344436006860050461533028050111500563601993444360068900004384330280501115532015028084443600639000048313302802011151280520355444436000330000541637026020111608713103554444360000900005222370260201118952429063214443600576000036793302802011151824310770044436007660000585935027080111579277607606444360086000005047310291201115501836094584443600884000070073102912011152680030594744436005580000776335027020111656724807064444360032200005416370260201116070452)
 (.leaf 6451444360006000005701370260201116146324105924443600000000086144502214011157264140632944436006260000541637026050111609118410478444360023200008438450220711115396101105924443600232000087634502207111162191600941144436002320000527647521071111598909009617444360040022007934450220711116203087079494443600848000042574502207111147054731059244436008080000873957517121111596975506536444360076601755119390250811116202467065364443600682029231463902508011150782010920544436006820000476447521071111614498609452444360035714395408450220711114707050093284443600790040553384502207111141427510950244436005400000809845022071111577019509387444360065600498488450220711115840196)))
 (.node 2 (.node 1 (.leaf 9467444360048600008098450220711115193833105924443600862000088464102410111160143521059244436007990000901745022160111533446510592444360081900009006450220801115565926061964443600799000089164502202111158381531059244436004130000899652519161111588799110592444360036600009000450221611114499207105924443600144000089164502216111148582681059244436000060000653345022161111477864510592444360001300006585475211611119184039105924443600017000079474502216111191568671059244436002210000796945022161111606123010592444360030700008010475211611114517223105924443600019000080747001216111146962181059244436001860000903755018161111536808510592444360036600009017450221611119309504)
 (.leaf 10592444360034900006484475211611116176433105924443600423000063044502216111144667411059244436004230000607145022161111586999410592444360001800006010450221611118998430105924443600014000061734502216111187124711059244436000160000601045022161111419695810592444360001000006298450221611118781674103304443600682000075504502216111187166411033044436006820000752345022161111590312110592444360068200007495450221611114234813105924443600024000049044502216111161332151043144436000160000595845022161111614530910592444360001000007529600161611119726273105924443600019000078707001216111149589141059244436000180000762652519161111498421910592444360007200008190675131611116335686))
 (.node 1 (.leaf 10592444360011600008950650141611116091545105924443600221000084826251516111153794911059244436002320000846860016161111603383110592444360023200007709600161611115886734105924443600026000081307001216111153739241059244436001480000832065014161111940282010592444360020700008434625151611115486356105924443600232000085576001616111163447451059244436002320000860460016161111526443110592444360023200008726475211611115361976105920003600232000082634752116111146777601059200036000330000426947521161111476055809175444360002400004801525191611115441468104254443600232000059146001616111141246101059244436002470000841250020161111603729308688444360000600003554475211611114745349)
 (.leaf 9191444360000000004283450221611116005967101404443600020000056355251916111146608371057744436001440000541155018161111457833310577444360016401755794550181611115955582105924443600032000069875251916111188623001059244436002210000718055018161111542330710592444360010400008982675131611115566220105924443600027000087576001616111161591701037444436006640000860870012161111513615710231444360027326508356600161611119358542097204443600000000033044502216111149097951059244436009290000871137026161111514141510592444360044200008725390251611115749804105924443600232000089675251912111151018811020144436001980000535647521121111908518110592010360014400005102475211211114791196))))
 (.node 4 (.node 2 (.node 1 (.leaf 10592010360077106265185330281211119005792105922183600714029251352703112011187800281059221836007140405659927031120111431187010592218360068900008141430231201118802128105922183600686000082364752112011160007641059221836006860000787350020120111480184710592218360068600497663475211201118802429105922183600349017572346251508011160855521059225536004421022734260016080111505173310592444360056700007321430231201118814755105924443600540004972354502212011190245461059244436005490292883447521120111962749008482444360063400008957450221201116188286084824443600865000088364502212011154705390848244436009320000425741024020111629998710592444360068200007967410240201115824959)
 (.leaf 559360068201754559410240201114554359054464443600517000030063102905011144841480469744436006050000395233028050111436181604961444360060100004104310290501115657387042244443600656017546733102905011150401621059242536000210000500235027080111629352010592425360046700005448330280801116554706042244443600366000059503302808011194676550422444436006820000676831029080111928944804224444360068204056504310290801116359057042244443600682000043843302802011193769840422444436004000000552337026020111500963207481444360001700004267350270501116160795019934443600431000058363502702011149208940355444436006640000461533028020111945165603554444360022100005713330280201116186110))
 (.node 1 (.leaf 7998444360051700003925350270801115877700082844443600874000056113102912011153966051059244436008700000886441024140111614597505858444360011300003365410240501114894368069754443600048000037813502705011167100770670344436002650000817445022020111540374509574444360000000008174450220201115403745103494443600000029269974502214011155372760655444436008260000657539025050111568614706750444360080200006549410240511115808779086434443600447000064834102408011133255681059244436002320000878145022071111524728509487444360020700005251450220711115907174086164443600283000045774502207111152306030669244436007900000301439025080111498701106962444360068200004123475210801115844224)
 (.leaf 9452444360062300004421475210711114512046094524443600803000051024752110111142192740932844436008250000838345022071111578141010044444360070400008710450220711115548600100444443600207000083174502207111157431610938744436006010000831745022071111418669909387444360033400004120410240511115245061094014443600207072872104302308111159383140946744436008420000837737026081111947663410592444360079900009012450221001116415918094744443600260000089574502202111141791100655644436007990000895745022021111417911006436444360079900008944450220211114848260105924443600341000089785002016111202110761059244436003490000889945022161111592001410592444360000200006534500201611115002909)))
 (.node 2 (.node 1 (.leaf 10592444360000000006652450221611116005734105924443600000000065085002016111149402991059244436000000000666055018161111916890010592444360048600008052525191611119269315105924443600198000080104752116111164407381059244436001130000807557517161111685787710592444360002100008108700121611116233246105924443600257000090255251916111160728071059244436003570000902850020161111624755810592444360036600009017450221611119451518105924443600018000062344502216111141065641059244436000070000564845022161111517444710330444360001000006737450221611119282813105924443600009000069394502216111188205011059244436000140000741745022161111568576210592444360001800007574450221611114185902)
 (.leaf 10592444360001000005251450221611115949620104314443600144000062984502216111161542471043144436005670000637962515161111640267110592444360001700008696675131611119509179105924443600032000089616501416111158181941059244436002210000895745022161111939762810592444360005700008879550181611119281278105924443600232000089386001616111152284581059244436002320000899360016161111519898010592444360022100005550625151611119832908105924443600232000070336001616111163709691059244436002320000855760016161111553951810592444360023200009001600161611115330367105924443600232000089746001616111190332831059244436002320000776260016161111594158310592444360014800008058600161611115911492))
 (.node 1 (.leaf 10592444360005700008244550181611119017377105924443600232000083566001616111148096361059244436001830000897362515161111631454210592444360023200008985600161611119380410105924443600232000090016001616111157715481059244436002320000852052519161111624026110592444360023200008539475211611114865019105924443600232000083705251916111146110451059200036000000000802045022161111416526110045444360024700005377500201611119028916098574443600019000041395002016111139981871059244436001640000668850020161111510559609642444360000000003876450221611115917504091914443600007000047444502216111160102271014044436000220000510247521161111606356810140444360001000005048525191611119301911)
 (.leaf 10140444360000000005305500201611115778444101404443600064000057775251916111187346801057744436002320000617055018161111568945610577444360022100006020550181611115703291103144443600072000051685501816111187950001059244436000570000506955018161111923091810592444360010400005393525191611115951978105924443600020000070475251916111158591731059244436000280000668850020161111495501310592444360051700007340500201611115086400105924443600176000087085251916111151956431059244436001640000895970012161111586056010592444360017000008595575171611114829665105924443600025000088766251516111161300611059244436000320000877162515161111626639410231444360027300008628650141611114818660))))))
 (.node 16 (.node 8 (.node 4 (.node 2 (.node 1 (.leaf 10231444360001500006203500201611119311670078504443600002000028474752116111161518430923944436000001432544045022161111641279710592444360088200008546370261611114750722105924443600911000087093902516111158187681059244436008780000869539025161111651033310592444360094000008725390251611116373308105924443600862000086333902516111160594191020144436008790000888343023161111609264810592015360069800006171475211211114743747105920153600686000062344502212111192632051059221836007140000522027031120111593563210592218360082500006746310291201115765093105922183600714135862252703112011148835091059221836007140000691729030120111604783910592218360071401747014290301201115118824)
 (.leaf 10592218360032200008292430230801116305615105922183600021000079765002008011163655851059221836002150000835660016080111557068510592218360014800007082575170801119164270105922553600136029072075002012011154782461059244436008650048869937026120111632237608482444360084900008263475210801114551512084824443600897000041914302302011160606530274544436009340000425741024020111605242410592444360068200007967410240801115236111054464443600517000030063102905011143421180469744436006050000408933028050111579481104224444360051700005305330280501114649679053764443600273000068393302810011191380691059242536005580000689431029100111956130105376444360061700005059330280801119305764))
 (.node 1 (.leaf 10592425360010400005195350270801119416135105924253600000000047183502708011155584940422444436001000000693135027080111552825404224444360066400006032350270201116175705042244443600349000059293502702011163238440748144436000550000550737026020111588980107481444360000400004795370260201119241547089284443600006000050943502702011191972171059237336000180000469235027020111521658210592373360044201746931350270801119206852092104443600870000071164102412011152446831059244436008660000886441024140111601316608984444360017600006543370260201114867302077274443600055000041204102405011147934230896844436002320000482745022071111565216908099444360064300004257450220711115607405)
 (.leaf 7581444360084800004827450221211115557463105924443600283000076874502214111162495440658144436006690000375335027041111597655709914444360084900004442500200711118849156093284443600183000050784502207111157003371052144436005760000866545022071111577209010307444360078200008763450220711114232102093874443600442000081744502207111157785450940144436004310000514543023071111917521908598444360061700006946370260801115562834099644443600682401565743302814011160936650953944436007191278626633028140111532289309473444360026400008957450220211114548656064524443600799000089574502202111146186010944244436002660000895745022021111459428010592444360038400008996525191611116777251)))
 (.node 2 (.node 1 (.leaf 10592444360000600006508450221611114492340105924443600006000065334502216111158349831059244436000000000648445022161111462820810592444360002400006421525191611116390464105924443600003000067255751716111160269991059244436000040000807455018161111488683010592444360034100008029500201611115769918105924443600247000080104752116111195739201059244436002210000791047521161111514411010592444360035700009023475211611115634831105924443600366000090174502216111195903561059244436003660000900747521161111520567510592444360036600009000450221611116237639105924443600018000063324502216111145569361059244436004000000648445022161111870319810592444360040000006484450221611118794707)
 (.leaf 10592444360040000006010450221611118904335105924443600015000069394502216111191484631059244436000080000517345022161111592610710592444360000600000000000031611119178315105924443600007000069974502216111158727671059244436000180000735845022161111475769610592444360001800006304450221611118738364105924443600017000063324502216111189495261059244436003340000862647521161111468750110592444360000500006542450221611114884280105924443600019000061944752116111162904121043144436001360000861152519161111520561910592444360013400008879550181611115129400105924443600221000087104502216111163210711059244436003220000889945022161111984196210592444360033400007718450221611116329329))
 (.node 1 (.leaf 10592444360000000007598500201611116646518105924443600011000064785751716111160723441059244436002320000898560016161111966045110592444360023200004952625151611116262407105924443600232000065806001616111152412921059244436001980000788662515161111912271510592444360006900008266575171611114811466105924443600021000081575251916111153439961059244436002320000893860016161111639997810592444360023200008938600161611115697241105924443600232000085205251916111145583321059244436001570000863757517161111922642710592000360022100008515600161611118684543105920003600001000078384502216111187093861059244436000110000542947521161111591121910592000360056700005393525191611115971826)
 (.leaf 9642444360000800004408450221011115120213101794443600013000054294752116111149641091031444436001570000585552519161111612862910314444360006400005144525191611114818886105924443600100000050025751716111152490311059244436000250000679252519161111608373010592444360050500007292525191611115314965105924443600100000087085251916111150218601059244436001830000894057517161111558649310592444360001900008746675131611115944267101234443600019000084576751316111216966461012344436004770000832065014161111748920910592444360077100008608700121611119976080102314443600006000069844752116111150503170935144436000000000410945022161111601521610030444360000000004408450221611115899154))))
 (.node 4 (.node 2 (.node 1 (.leaf 9672444360000000003811450221611116056696090204443600000000058654502216111157969311059244436008370000900645022161111505139210592444360066900008633390250711115973411105924443600057000057554302307111158872001059244436002930289848741024071111603481910201444360070405128666390250711116007778102014443600871000089764502212111146058881059201536008240402895745022121111615907510592010360071400006699290301201116274440105922183600714000068202703112011186669921059221836007421993660229030120111463717410592165360062100476306310291201115386514105922183600144000063223902512011165620351059221836001920000793157517120111550612510592034360002700007525525191201116430210)
 (.leaf 10592218360024705127404600161201115717645105922183600019000060985002008011161117171059221836000240000650752519080111627289210592117360036622827602450221201114763367105921393600176000071344752112011189893661059244436001640622773362515120111459859910592444360090111018653370261201116210310096584443601042000088314102412011171189520848244436007660512895750020120111597938710430444360068600008513500200801119316557081104443600858000081744502202011159264511059244436006820000788541024020111591397100000559360077100008262410240801115328170105924443600682000052413902502011156522600544644436006430000346537026020111460869704697444360060100003337350270801114631332))
 (.node 1 (.leaf 4131444360051700003835330280501115883232053764443600226000038573502708011155648560537644436006690000411335027080111611712105376444360056700004422350270801119076390105924253600164000059293502708011194531211059242536000000000541035027080111564608610592425360002400006858350270801115297647042244443600021017368193702612011192725850422444436005850000692335027120111607519805016444360033400004884350270201115752403097444443600540000050943502708011192367620922644436006820047659637026140111650598307058444360087000475920410241201115398143105924443600857000088904102414011159750211059244436008711018866639025140111601938107686444360014800004187390250201119411195)
 (.leaf 5684444360013400004525370260201116155718089694443600224000048274502207111157831000856344436008480000482745022071111603464809914444360087200004280500200811116058223099144443600505000046995002010111159055090991444436002210724527647521121111584517510307444360084500008438450221211115792462093874443600664000086144502207111149721910940144436002470000809845022071111554846010517444360087000008619390251201115965030105924443600621000088984752114111162518440995044436004230000846350020140111618499009635444360062700007174450221401116040784105924443600877109885593702614011156960741059244436008791188837833028140111556337910592444360088200008392330281401115740785)))
 (.node 2 (.node 1 (.leaf 10592444360066400008440330281401116097426105924443600634017285913702614011160602441059244436008450620863339025140111604204610592444360082400008814410241201115280548105924443600682050983892903005011160736450883044436006170000901745022021111573794806741444360079900008976450220211114505803105924443600799000090004502214111138619141059244436000000000663045022161111446113210592444360000000006678450221611114753007105924443600014000078366251516111152622771059244436000050000803560016161111467874710592444360000800006824600161611115153721105924443600025000081266251516111161139741059244436001340000814865014161111911184310592444360015700008108600161611118950695)
 (.leaf 10592444360022100007986450221611114549880105924443600221000079694502216111153958101059244436002470000801150020161111540042210592444360030700009041575171611115558523105924443600293000090415751716111195444391059244436001860000904460016161111636345910592444360036600009000450221611119632562105924443600032000064815251916111159840431059244436000080000717445022161111509769810592444360001300006813450221611118749998105924443600018000062074502216111156697371059244436000180000645845022161111483835910592444360036600007116450221611118956974105924443600011000054084502216111191397921059244436001000000629845022161111553617710592444360029300008781450221611115924215))
 (.node 1 (.leaf 10592444360022100008885450221611119327260105924443600221000084884502216111162273861059244436002320000831745022161111526270710592444360000000006572475211611115496227105924443600002000057676001616111189461841059244436000330000591460016161111487509810592444360016400006058600161611114731578105924443600144000047696001616111192496991059244436000110000590150020161111598739310592444360019800006473600161611115455849105924443600060000085996751316111160756941059244436001130000899965014161111611570410592444360022600009031625151611114459414105924443600232000090396001616111149115201059244436002210000790762515161111610273810592444360001400006039575171611118937544)
 (.leaf 10592444360000600005478550181611115993214105924443600064000084005751716111149082711059244436002320000898560016161111993416810592444360023200009036600161611116248408105924443600198000086496001616111158108531059244436002150000864960016161111909112510592000360000000004577450221611114424429105920003600000000048274502216111188054091004544436000000000517345022161111597533909318444360002500004456525191611114852365105924443600682000089425251916111154938620948444436000070000365645022161111549941810179444360001700005173450221011115285612103144443600017000053564752116111152538401031444436002320000629955018161111520821410592444360019800005964575171611119201265)))))
 (.node 8 (.node 4 (.node 2 (.node 1 (.leaf 10592444360023200005964575171611115988770105924443600221000056725751716111143005661059244436002830000769352519161111521430010592444360010000008832525191611114783717105924443600170000090436501416111151035041059244436000260000902967513161111543460210592444360001900008905675131611116043380101234443600104000082436501416111165638591012344436007900000752960016161111743304310123444360077100008303625151611115744176101234443600232000088465751716111190204441012344436002320000886460016161111908908210123444360018300008095550181611119215692105924443600017000080404752116111188617691059244436000130000819147521161111574498210592444360000500007865475211611115745985)
 (.leaf 10299444360000600004764475211611115706966087574443600002000052764752116111157675791059244436002320000828350020161111492307410201444360076600006012390251211114685317102014443600669028884773502712111157419151059262136008190000851635027121111497107110592010360070914235847370261201115043803105920103600835000051103302812111147048631059221836007190046676529030120111583951710592218360074225666765290301201115817675105922183600819017267463102912011155680351059212836008420401686727031120111537620810592128360082404016056270311201119885717105921653600024000067925251912011151106721059202736001360000671252519120111601002510592027360013400007066550181201116019670))
 (.node 1 (.leaf 10592117360011300006941550181201119026424105924443600885028889204102412011164203330811044436008420000880047521080111631023808482444360089100005251450220201116141110105924443600771004685593702614111191920870000055936006820000446339025020111510270110592444360068200005522410240801114828261054464443600682000036573902502011158780400469744436006820000377839025080111530168504697444360044200005002350270201115935541053764443600627000034063702602011148951290537644436006820000372441024080111917737005376444360056700003359390250801119347083105924253600283000065433702608011194683880652644436006270000585935027020111927628104224444360016400005410350270201119595200)
 (.leaf 7481444360025702886121350270801116222760074814443600627017260513702602011190468550748144436006690046694637026120111535593503554444360079000007542390251201115839497085564443600689000071733702614011159692351029244436007040000847137026140111647525309241444360080500007367390251401115894920046294443600505000051323702602011163436810545644436002570000607435027020111604064005550444360010400003753410240201113325568075974443600017000059494302302111133255680991444436009180000328745022080111590209909914444360083500008080430231211115992423092494443600643000054554302307111146665540817044436002472041791443023071111521045408170444360019806177997430230711116039408)))
 (.node 2 (.node 1 (.leaf 8170444360036600007125410240801119644564081704443600865000086204102414011163406761041544436008440170885247521140111568555610240444360084409198781450221401116308223105924443600996000089524302314011156605500471344436011590000884039025050111513187110122444360098000008744370260801115625451099544443600992000087443702608011160121691059244436008700000864037026120111571774306485444360079010126892370261201116164986095854443600698134367243902512011160664451035744436007710286816333028120111675046810592444360082501708679390251201115875342105924443600617000090124502216011157940060698044436008270000887641024021111516334810592444360079900008967450221411114215977)
 (.leaf 10592444360079900008916450221411114091159067894443600799000089764502202111161551071059244436007990000898645022141111633088510592444360040000006507525191611115117646105924443600026000064574752116111157603361059244436000040000648152519161111611396310592444360001900006697450221611115566840105924443600002000065865002016111146991361059244436000200000676357517161111595769610592444360013400008148650141611115647485105924443600116000081656751316111163399361059244436001570000904460016161111618790110592444360027300009028500201611115765509105924443600357000090375501816111193167121059244436003220000803052519161111447788510592444360028300007891475211611119564365))
 (.node 1 (.leaf 10592444360028300009041575171611115387115105924443600322000090415751716111155334961059244436000160000757445022161111456708610592444360001000007297450221611115501312105924443600283000076304502216111156947791059244436000180000653345022161111467228710592444360000900006737450221611116242882105924443600341000074954502216111147647311059244436002930000831745022161111599519710592444360000900006542450221611115411263105924443600000000066205251916111191111181059244436000000000535857517161111585542810592444360000000005091575171611114777827105924443600003000049744502216111157477791059244436002320000855760016161111464776210592444360023200009036600161611116036392)
 (.leaf 10592444360023200009027600161611116112881105924443600002000082085002016111148979241059244436000060000820850020161111431449010592444360013400008954575171611116196697105924443600069000090186751316111158516121059244436002210000871362515161111519447310592000360019200007061600161611114380740093184443600000000038114502216111191396300953544436000270000504852519161111610812810566444360017000008400575171611115747590095144443600017000048274502210111154515271017944436000720000872455018161111619329710592444360023200005746575171611114750415105924443600366000086225501816111165610721059244436003340000808252519161111532433110592444360016400008832525191611114951265))))
 (.node 4 (.node 2 (.node 1 (.leaf 10592444360005700009048675131611115385598105924443600019000090426751316111195000761059244436000190000897067513161111631957210592444360001900008806675131611115817401101234443600019000083396751316111163230051012344436007190000663357517161111668022310123444360023200008649600161611115872453105924443600232000086375751716111157974121059244436002320000862255018161111617099710009444360082400006207450221211115697896105924443600777000058333902512111157147761020144436005760617550833028121111580581310201444360069811855508330281211118818431105924443600198000051372903012111149174831054244436007991880863641024120111910136810542444360083200005131370261201114807897)
 (.leaf 10592128360087202866966290301201115235185105921283600257000065433702608011158037801059204636008191012639631029120111984090610592046360071400005903270311201115761559105921653600698000057322903008011195394241059212536001040000739347521080111923610110592125360021500008229600161201119013907105921253600283118582086001612011159184261059202736002570000715760016120111488059110592139360051700007060410240801115938122105921393600113000065794102412011190088831059244436008190170879639025120111939471110592444360085800009017450221201115844160105924443600837000090064502212011157367950811044436008580000838345022080111592365802745444360093400003836410240201116050299))
 (.node 1 (.leaf 10592444360093400004717410240801115641358054464443600682000067014102408011193423410544644436006820000620341024080111600068304697444360046700004384330280801115953142046974443600623000041923702602011150774110164044436006820000552539025020111473642005376444360046700003136390250201115927555059934443600682000041484102402011160385991059242536006820000541639025020111563888610592425360001100006819370260801116060633042244443600134000074553502708011193655620925044436001700000644635027140111891455510217444360054000456217350271401118521533102564443600431000064993502714011158433951028644436003570000638435027140111599957004224444360003200004718350270201119516714)
 (.leaf 7320444360060100456292370260201115830019079634443600558000062533502702011151525800903144436008440045694841024120111594702808113444360087002867369410241201114473459031724443600870243271254102402011139170230459144436007910000740337026020111517137310411444360087000008668410241201115008499056484443600334000057012903002011159493920515044436005670000568635027021111332556809253444360013600005793370261411113325568059604443600247000056153702602111133255680640944436001360000531435027021111332556807980444360054000007325370260411115147993099144443600613000044214752108111158649640991444436008240000523143023101111478232508170444360016400005173450220711114828952)))
 (.node 2 (.node 1 (.leaf 9401444360085301698697410241201116829172099304443600856000087114102412011158346571059244436001440000864235027021111357394109172444360042300008831410240211115716210105924443600423000088904102408111144689101059244436008190285895745022140111577143910592444360060800008744370260811115795024105924443600547000085243702612111159671731059244436009180507849135027120111598290410592444360089106158566350271201115840233093604443600698071985913702612011162057051059244436008250000882043023140111597714610592444360043400009017300011201116018222105924443600704000090173000112011157998421059244436001130000668260016161111507650110592444360001900008980700121611116999497)
 (.leaf 10592444360002000008989700121611116142507105924443600032000090186751316111189513791059244436000600000904865014161111579882810592444360002000009052700121611119050843105924443600020000090527001216111192614571059244436000320000905270012161111937588110592444360003300009051675131611114864941105924443600226000079884752116111163058571059244436002320000901950020161111931357110592444360027300009037550181611115907869105924443600283000090275751716111158483851059244436002730000903455018161111599202910592444360023200007972500201611115883708105924443600293000090315751716111191227951059244436003070000904157517161111593079310592444360030700009041575171611116033841))
 (.node 1 (.leaf 10592444360033400009041575171611119268794105924443600307000090415751716111152889441059244436003220000903857517161111599084510592444360036600009014500201611116068356105924443600026000080556251516111156636221059244436000090000665245022161111563362110592444360001000006610450221611115620545105924443600015000063324502216111154369201059244436000180000771845022161111542378310592444360028300007602450221611119115654105924443600018000063994502216111157104181059244436000180000617345022161111884684310592444360001800007574450221611118705302105924443600366000075504502216111160124751059244436003660000900045022161111541871510592444360017600007718450221611119032277)
 (.leaf 10592444360036600007687450221611116540475105924443600000000069974502216111150104291059244436000000000551655018161111580891110592444360014800004152525191611119420202105924443600013000036945251916111157049011059244436000000000451645022161111604545110592444360033400005440450221611119050954105924443600232000066876001616111161536701059244436002320000855760016161111602600710592444360023200008468600161611119026468105924443600192000090076251516111153310611059244436001860000904762515161111506305810592444360000000005788450221611115409747105924443600009000051964752116111147890371059244436001830000903867513161111966695210592444360057600009047700121611116523461)))))))))
 (.node 128 (.node 64 (.node 32 (.node 16 (.node 8 (.node 4 (.node 2 (.node 1 (.leaf 10592444360023200009032600161611116099530105920003600232000085156001616111149155931059200036002320000813360016161111591206910592000360023200008285600161611114410365105920003600232000069766001616111142994721059200036002210000511960016161111577010410592000360001500003977500201611119323072097254443600000000045774502216111150432020918544436000180000469950020161111573945710423444360001830965612500201611115933184095784443600003000031474752107111149603421031444436000570000824455018161111891179410314444360010000005709525191611116024418105924443600134000059435501816111151994651059244436000270000504852519161111585325310592444360002800005464525191611118999110)
 (.leaf 10592444360006900005546525191611114973334105924443600423000083025251916111189438941059244436001640000862647521161111495891410592444360020700008984625151611115398616105924443600028000084576751316111158721191012344436000190000826467513161111706637110123444360066900007397575171611120245400101234443600799000070265501816111154085631059244436002320000875760016161111909671510592444360077100008608700121611118934962102994443600517000087136251516111154761711059244436008030000878343023121111451720810242444360068200445508330281211114509545105624443600682028557123302812111144235461059044436007791009609341024121111569915310592030360087100004718350271411119051908))
 (.node 1 (.leaf 10592128360081900004778310291211116295877105921283600782016948592903012111159572621059212836007820719498329030121111497331510592030360087709166333350271201115785385105920713600819000061953102912011163968501059204636001440000621735027120111942782110592046360058500006594310291201115795398105920463600183000061113502708011150895691059202736002730000748460016120111523603610185444360001700006669475210801114834124101854443600020000060584502202011160913121059244436001760285871045022120111605480310592444360087100448699370261201116141650105924443600879000086553502712011162197190986844436008580000817445022080111498442804462444360090700003836410240201115901138)
 (.leaf 10592444360093400004120410240201115297179105924443600643000083553902514111148570060544644436006820000670141024080111652728704697444360068600004076390250201114644506046974443600540000045863302802011159100440469744436004670000549333028020111518953704697444360068200007036390250201115063714053764443600682000042133902502011165083080537644436006820000340639025020111571145005376444360068200002870390250201116031989059934443600349000058654502202011160258251059242536000690000639339025020111568667610592425360002700006068390250201119987200102564443600442000069083102914011156410140933344436005050044670135027140111575414804742444360061702855399350270201115538505)))
 (.node 2 (.node 1 (.leaf 6699444360028300006816270310201114575962052304443600567000060903902502111133255680682244436001480000588837026021111332556809295444360000000006559575171411113325568058014443600028000039025251902111133255680490044436005410000522237026021111332556807144444360054000006543370260511115688207070264443600835039649904752108011150034580991444436008352491505443023081111532589909914444360003309154744450221011115169023081704443600824016838114502210111150535591032144436007930000793839025140111580312510592444360029300008962430230511116441302105924443600283000087443702614111159892441059244436002210000865535027121111580876810592444360034100008642350270211115617121)
 (.leaf 10592444360022600008699370260211115753201103844443600221000088093902502111157786281059244436005240000889041024081111516346208922444360087501687096330281401115831401105924443600623162868513102914011159034350925744436008320000851635027140111570638310592444360080302848613370261211115916033105924443600634000085463702612111155089461029044436005400000800835027141111537464310592444360070400009017300011411114733169105924443600704000090063000114111154355931059244436007710000905270012161111606151110592444360068600009045675131611115971901105924443600215000088854502216111162516171059244436000020000636445022161111596647210592444360034100006474650141611115945247))
 (.node 1 (.leaf 10592444360020700006354600161611115823090105924443600055000071296501416111160775561059244436001700000854357517161111622371110592444360017000007764575171611115215719105924443600057000090196501416111147599741059244436000190000905270012161111560823710592444360002200009052700121611115053201105924443600019000090527001216111191569401059244436003070000904157517161111957269010592444360030700009041575171611115882755105924443600307000090265501816111152643571059244436003070000903857517161111926810210592444360030700009041575171611116227000105924443600307000090415751716111163644821059244436003070000904157517161111648345010592444360030700009041575171611116389381)
 (.leaf 10592444360036600009018475211611115465023105924443600013000065084502216111144155621059244436000100000663045022161111894120710592444360001400006610450221611118693600105924443600283000073584502216111159596411059244436003660000885345022161111589398010592444360002200007889450221611114746899105924443600366000084884502216111159193471059244436003660000749545022161111555054710592444360000000005943550181611114864175105924443600549000059804752116111157412071059244436006170000586545022161111879635410592444360061700004080450221611115352994105924443600617000035444502216111152718641059244436001480000868065014161111941248110592444360013600009039650141611119528619))))
 (.node 4 (.node 2 (.node 1 (.leaf 10592444360023200009027600161611119009230105924443600232000089746001616111155011911059244436002150000902160016161111622271010592444360003300005830675131611115851512105924443600170000084826251516111159099431059244436002320000786860016161111547256910592444360060100009051700121611116104499105924443600232000090326001616111194259001059200036002320000591460016161111474948410592000360023200006345600161611114639077105920003600232000067706001616111187305341059200036002320000851560016161111874326610592000360023200008208600161611114719827105920003600232000062066001616111148224421059200036002320000502460016161111602951009725444360021500004981550181611114882493)
 (.leaf 9725444360000000003952450221611115999863104024443600017000041395002016111148699210986144436000000915262847521071111500065710314444360001500004715525191611118835478105924443600027000050485251916111147806141059244436000170000517345022161111565433210592444360002000005232525191611114879815105924443600215000081914752116111149236621059244436000200000886367513161111582749310592444360001900008746675131611116294988105924443600019000089496751316111198336101059244436001480000817365014161111515423210123444360077100007478550181611116142059101234443600799000062625501816111147164491059244436002320000888152519161111580596710592444360023200008611525191611115903091))
 (.node 1 (.leaf 10592444360070900008969700121611116036853105924443600837000089775251912111150516811006244436002070000485929030121111477097710153444360056702845353310291211115914066105924443600601028458733702612111158151051059200036008450000482133028120111595369810592000360082406146594310291211119130700105920463600349016865743302812011149098131059213236003660284695135027120111902684910592125360023202847060410240801114573665105921253600283187181414302312011158958651059202736006640000711641024120111597329410592027360064300006685370261201115938405105920273600450004368885501808011161874961018544436001000000657247521080111518372010592444360053500008635430231201116013570)
 (.leaf 10592444360069400008986450221201115751638042984443600858000083174502202011157671551059244436009340000353441024020111940377210592444360070400007285410240801115269733105924443600714016884283702614111152400751059244436006820000597441024080111555516905446444360070400003687390250201115800934016404443600709000066773902502011151023290435644436006820000398639025020111473278705993444360071900436167450221401115812353044884443600682000061674502202011162138800532544436006820000843845022020111594466005249444360033700005653390250201115904517103404443600870050586504102414011148931161059244436006431089708935027140111555377810498444360059100007454350271401115632407)))
 (.node 2 (.node 1 (.leaf 8521444360000000004840700120711113325568053584443600341000052223702602111133255680018944436009530000446339025020111332556803633444360078100004463390250201113325568105921943600920000047805002008111149657810991444436009340000592452519081111550524809914444360071900005054430230811116480100099144443600917000056484502212111158605190991444436007771330463641024101111543388408170444360083907166361430231011114907570081704443600592000049044502214011163046030988944436003070000802045022140111569156810592444360014400008825390250811116068500103554443600779000086553502702111158922390940644436007790000865535027021111544896210592444360102700008825390251401114863880)
 (.leaf 10344444360077913308553390251201115346104053884443600623000078533902502111164740210554244436005280000648341024021111581311810592444360070400009012300011411113729990105924443600528000090173000114111146329181059244436007710000905270012161111614357210592444360029300006764625151611115364485105924443600423000066526501416111193916761059244436002070000765555018161111909633910592444360010400008992625151611115689319105924443600028000090346751316111159602541059244436000190000905270012161111570048810592444360001900009052700121611115328841105924443600192000090406251516111165722061059244436001700000904362515161111542792110592444360022600009036600161611116312792))
 (.node 1 (.leaf 10592444360040000009013475211611115198129105924443600018000062344502216111191265741059244436000000000636445022161111496061210592444360000000006426450221611118750039105924443600018000064844502216111189128091059244436003490000887245022161111563081210592444360000200007871450221611119412601105924443600366000067374502216111156442341059244436003660000717445022161111579332010592444360000000006939450221611115191786105924443600000000064264502216111156714571059244436000000000497445022161111870915610592444360000000004516450221611115792493105924443600000000056624502216111191235011059244436006170000365645022161111930370910592444360051700005262500201611116206484)
 (.leaf 10592444360023200008285600161611119105174105924443600064000090056751316111151178841059244436001040000904865014161111928002210592444360023200009021600161611115083280105924443600232000088136001616111153639181059244436001830000904062515161111606454010592444360002200009051700121611115830094105924443600232000074846001616111148447041059244436005280000903867513161111637530210592444360025700009043625151611119591035105924443600232000090446001616111163189751059200036002320000674960016161111472726210592000360023200007033600161611118756769105920003600232000071576001616111185086641059200036002320000855760016161111855893710592000360023200007097600161611114689479)))))
 (.node 8 (.node 4 (.node 2 (.node 1 (.leaf 10592000360033400007198575171611114584077105920003600232000068556001616111187550591059200036002320000521060016161111904997809725444360023200005196475211611114806561097254443600017000041234752116111148623651009844436002320000561660016161111539971810592444360030700008412500201611115854173082374443600000000024074502207111158833690823744436000000000240745022071111901684010592444360001600005276475210711116096453105924443600186000089435002016111160055521059244436000690000896752519161111590163310592444360011600009016550181611115606846105924443600186000090386751316111161451881059244436000190000864267513161111592553010592444360001900008550675131611118696563)
 (.leaf 10592444360001900008863675131611115384778105924443600019000090426751316111154295851012344436000190000903467513161111599112910123444360034900008264675131611116047960101234443600232000090315751716111157553841059244436002320000888250020161111545750810592444360062700008928525191611116052633105924443600837028289425251914111152791961059244436006980000887047521141111587835910592444360083700007844525191611115892941099744443600627000058574302308011159985791059203036008070000639237026121111874433910592030360071910044983290301211115799153105920303600828000049783102912111160923941059207136007141176498727031121111508121610592071360018301677018350271201114617393))
 (.node 1 (.leaf 10592132360014800007116410240801119100459105921253600215000073905751712011188852251059212536002830000823057517120111580663310592027360057600007134475211201115461200103394443600865000088184502214011153640210446244436008720000383641024020111534260110592444360054900008016390251411119333943105924443600799039584083902512111154184161059244436006820000670141024080111568646904697444360069800004463390250201114824922046974443600682000053054102402011149272960960444436007190000639339025020111528179809604444360068600003687390250201115922231043564443600682000039863902502011151439690537644436006820000358843023020111509225209029444360061319768684430231201116251059)
 (.leaf 4838444360068200007934450220201116567555055354443600408000071894502202011162420311059244436004420000680831029140111586667110592444360057602826962330281201116746132000004443600969000046514302302011133255680000044436009840000407639025020111332556805742444360087000005857430230411116053100059764443600848000047444502208011158167261059219436008710000387645022081111592927609940444360094300004293525190811116141555099144443600971000047365501808111152782020991444436005490000490445022081111523607908170444360063909104737430231011119139220081704443600777004146624502210111158202250570544436009820000451645022140111508874106133444360096200005865450221401115901985)))
 (.node 2 (.node 1 (.leaf 10592444360060100008653370260811116012870105924443600682000083583302802111162851481035544436007770000865535027021111611587208875444360077900008655350270211115964251086904443600617000090335251902111173012631031944436008700000848637026121111693587110400444360087103938498370261201116201217103444443600845039367963902512011194601850857244436008320000619939025120111605934808885444360078216855914390251401115929184086534443600819100058883702614011162682860440044436006210000478041024021111671712505865444360032200415711370260211116160754089544443600348000066613702614011161616641059244436003840000901745022161111601090810592444360023200006654625151611119643796)
 (.leaf 10592444360057600009037700121611119522740105924443600517000067216751316111192660841059244436001980000773657517161111912830510592444360013400009000625151611115703093105924443600019000090527001216111154510291059244436000190000905170012161111924841710592444360001900009049700121611115410670105924443600019000090527001216111164158091059244436000200000905270012161111573437310592444360006400009051675131611119689212105924443600357000089684752116111149335381059244436003340000903455018161111497114310592000360001800006484450221611114825170105924443600018000064264502216111190451521059244436000180000636445022161111595628010592444360000000006364450221611115975278))
 (.node 1 (.leaf 10592444360000000006399450221611115755772105924443600000000075744502216111158337891059244436000000000639945022161111583079310592444360028300006458450221611118901385105924443600283000058644502216111190905571059244436003220000620745022161111898510410592444360035700008976450221611115521565105924443600366000090174502216111160607671059244436003490000897645022161111937680710592444360036600008098450221611115738047105924443600293000073325002016111158323041059244436002570000757050020161111953547610592444360000300007715500201611115356981105924443600000000042834502216111153693281059244436000000000428345022161111507438310592444360061700003544450221611119076831)
 (.leaf 10592444360022600008227625151611119475558105924443600028000090517001216111159725861059244436002320000903260016161111550187010592444360023200009008600161611119683697105924443600170000087716251516111159778791059244436001860000887662515161111535122710592444360023200008864600161611115717175105920003600232000078396001616111155878281059200036002320000803560016161111612553210592000360023200006749600161611116187142105920003600232000087006001616111141893991059200036002320000864960016161111480735510592000360023200007091500201611118970275097254443600232000071744502216111147282730978444436000170000397750020161111513170010592444360090100008853450221611115628590))))
 (.node 4 (.node 2 (.node 1 (.leaf 10092444360002700003680500201611115876068105924443600013000027304752107111160738311059244436000000000444250020161111537322010592444360018300005657550181611119220667105924443600055000056355251916111158798731059244436001700000863757517161111575461810592444360013600009018675131611118835952105924443600019000090296751316111156577931059244436000190000869667513161111664701510166444360001900009034675131611116338134101234443600782000077245501816111158680761012344436002570000820470012161111652727610123444360029300008113675131611119361137101234443600198000083566001616111160457641059244436002150000903557517161111621150510592444360023200009002500201611116262275)
 (.leaf 10592444360023200008881525191611115141686105924443600742000090155251916111150198171059244436000000000614345022161111576789009680444360056700005934410241201115823356105922873600643050065473902512011190235521059228736008030500497831029121111574031710592050360084500004887330281201114795468105920713600799000049212903012011188486351059200036007790000497831029120111590178510592071360070900006411310291201119160387105920713600704039365023102912011160612711059207136004420000692933028120111581611710592132360010000007043370260801114985082105922143600055000071515002008011160656341059212536002830041728160016080111530938810592125360057600006669475210801115814578))
 (.node 1 (.leaf 10592027360057602817010475211201115078826105920273600540000061205251908011159954001059202736005490000592452519080111600164408449444360052800006289550180801115868131054994443600686000053584102402011159072000165044436005920041809039025121111547302105446444360068200006885390250801119830367096044443600714000043354102402011190779000960444436007040281584141024020111515692109604444360066400005241390250201119195652096044443600682000038833902502011153122740435644436006820000388339025020111547159610592444360028300006646270311401116885134069184443600984000062984502214011144213300893344436004870000611541024140111528496209860444360000000006733550181601113325568)
 (.leaf 7957444360034100005287525190711113325568038774443600689000052384752102011133255680987744436000000000737055018020111332556806253444360083900004744450220811115625289056704443600971000039935251908111159477580622644436009750000526250020081111537347405259444360093910814699500200811115816205051714443600982191749044502208111158815870622644436009820000522145022080111596950905617444360084601645173450221011114951045059084443600982000047444502210111157634200613344436009840000314747521080111938809804775444360095800004559410240201119577655078524443600872060737192903014011154671470895144436005400000835833028021111579013807409444360025700007978370260211114862519)))
 (.node 2 (.node 1 (.leaf 8014444360077100005744410241411115797663027864443600824000034663902502111161307460993544436004150000679639025121111594589607324444360068200006058450220801115248918087604443600617000070193702614011161094590811144436007040000667739025140111635847508689444360057601645479350271401116017055094634443600779049979383902514111158522910872944436007790280717337026140111569680709304444360079000407853390251401115953937096994443600807000078543502714011149230741059244436001640000678660016161111500424110592444360017000007950575171611115524483105924443600027000081096751316111194180511059244436000250000904970012161111657978610592444360001900009051700121611118839954)
 (.leaf 10592444360001900008980700121611115380160105924443600019000090527001216111165083191059244436000190000904970012161111600769610592444360001900009052700121611119711526105924443600025000090385751716111160200511059244436001130000896745022161111542112410592444360027300009006450221611115191277105920003600018000065334502216111148250151059244436000000000642645022161111913913610592444360023200008128675131611115962181105924443600283000063994502216111159806621059244436002830000601045022161111935491510592444360027300006089475211611119189128105924443600192000089555501816111198096031059244436003570000898747521161111569307610592444360024700009033525191611119620433))
 (.node 1 (.leaf 10592444360036600009012450221611116212962105924443600366000089764502216111160031421059244436003340000891547521161111591299610592444360001900008284700121611115768951105924443600019000080507001216111193303221059244436000150000688665014161111630943110592444360000000006641450221611119042897105924443600221000061674502216111149446451059244436002320000903260016161111598293810592444360018600009040625151611115758161105924443600232000090326001616111150345131059244436002320000903960016161111512339310592444360023200008014600161611119483670105920003600232000073426001616111159214551059200036002320000860460016161111439536610592000360023200008864600161611115374084)
 (.leaf 10592000360023200008813600161611115550544105926263600232000090156001616111155899171059200036002320000797360016161111556153710592000360023200007116450221611118840847105920003600232000064264502216111157920370972544436002320000507845022161111586326309725444360013400004827450221611115887119084704443600028000038214752107111160358190954744436000070000295847521071111919628410592444360002100005048525191611115062253105924443600019000066885002016111156343771059244436000240000811367513161111577728010592444360011600009048675131611114664689105924443600682000090377001216111159061281059244436007090000905170012161111578235210592444360052800008655700121611116580172))))))
 (.node 16 (.node 8 (.node 4 (.node 2 (.node 1 (.leaf 10166444360005500008026675131611120837448105824443600423000078707001216111161942280909544436006890998471741024120111566095310592050360079007124859290301211114711729105922143600540000069774302308011160815441059221436000550000677250020080111566093510592214360028300007404600160801116042221105920273600467000072925251912011149768991059202736005760391590150020080111598801108652444360054900005491525190801115962919084494443600567000052875251908011154232560797944436004670000759455018120111520286410592444360054008149022575171201115599406105924443600467000090415751712011176838070924044436008790000708627031120111447957805499444360059200005358410240201115147360)
 (.leaf 10592444360063900007967410240811115252910105924443600682000083254102408011191037330165044436006820000552539025020111538599209914444360060500004922390250201116131585096044443600627132455454302302011154430710512644436006820000492139025020111538943903108444360069800006068390250201119304035045384443600682000036873902502011150459450973144436007120000830145022120111588195010025444360063400006655330281401115665486105924443600467028065943102908011164145481059244436004310000688931029140111636453108174444360022100004547500201611113325568045474443600613000058844752102011133255680873444436000000000673355018020111332556807703444360087000007321430230411113325568))
 (.node 1 (.leaf 6542444360082801634744450220811115680395062264443600978081054404502208111157947800622644436008850000455941024081111906450206226444360083200003679330280811115955257062264443600960060645164502208011190264750991444436009822367498445022080111584042905617444360094841634662450220511115896907056174443600967146942694752105111188912690622644436009612289645747521141111582008506252444360092500003993525191401115277606088104443600891000051573102908011155635360722344436008240000902850020021111445953707954444360016400008447350270211120573332077534443600257000085043502702111158393711059244436006120000862835027081111599373608429444360081900005525390251401116161808)
 (.leaf 6684444360079014016653350271401115787694098794443600807049767584102414011154566590595344436005760039801639025020111574944710592444360085800008709390251401114590740105924443600179000090415751716111157822811059244436001700000674960016161111578916510592444360001900009037700121611116618603105924443600019000090517001216111171994691059244436000190000905270012161111661414010592444360001900009052700121611116721590105924443600019000090527001216111163443811059244436000190000905170012161111619878210592444360001900008989700121611115717794105924443600019000090527001216111162357261059244436000190000904770012161111618023910592444360001900009052700121611116763361)))
 (.node 2 (.node 1 (.leaf 10592444360002500009041575171611116149328105924443600025000090375501816111195941011059244436000690000896847521161111577618910592000360014400009017450221611115456583105920003600366000063044502216111151979501059200036003660000656245022161111580078310592000360036600006678450221611115711571105924443600322000064584502216111193259031059244436002070000902952519161111939956310592444360020700005448500201611115783049105924443600366000090064502216111159913051059244436001700000903157517161111607286310592444360001100008374625151611115871066105924443600000000077694502216111154493481059244436000000000755045022161111990442210592444360000000007550450221611116476071)
 (.leaf 10592444360000000006426450221611115814822105924443600001000089444752116111155161701059244436001640000901657517161111513027710592444360020700009020625151611116133710105924443600232000090326001616111153542991059244436002320000902160016161111524815410592444360023200009021600161611115714966105920003600232000070976001616111155353781059200036002320000846860016161111531584610592000360023200008604600161611115795453105920003600232000087576001616111145735261059200036000170000595845022161111523676509518444360001900003811450221611115854740105924443600467027960104502216111156443970876744436000140000314747521071111911663710592444360000000002972500200711115976027))
 (.node 1 (.leaf 10592444360001400006098500201611115461055105924443600027000079416751316111183646421059244436006130000901170012161111504665310592444360077100009041700121611118695827101664443600232000076287001216111168713281058244436002320000886950020161111635048410582444360023200008694500201611116314097105924443600232000086945002016111162303411059244436002320000891450020161111942324010592444360023200008943500201611116100444105924443600232000085555002016111151679730973844436006981963693945022140111575509010592278360077100004577450221201119507586105922873600807000051454302312111152103151059228736008250163477831029121111574452710592000360071404976713350271201119050337)
 (.leaf 10592000360079902796381330281201119159404105920003600719000065963702608011191145781059213236007190000805637026080111569807110592214360056700006854500201201115329014088064443600540000054915251908011160022630766344436005400000480152519080111597778910004444360059200008688575171201115087679068464443600689000075423902502011162462461059244436006010000720141024080111578606910592444360042300007885410240801115714574073794443600689000038833902502011160671410544644436006340000443439025020111484603409914444360062307094894390250201115160185096044443600686247470114302302011188953451059200036007660606756741024080111596364907181444360068200005305410240201116201424))))
 (.node 4 (.node 2 (.node 1 (.leaf 5126444360068200004310390250201115620403031084443600682000034214102402011161557551059244436008030000419237026020111898291704538444360068200003239390250201115133641045384443600540000063244752102011162650880933444436006820000707547521140111555809706989444360034102796051370260201115503864097034443600025000057113702602011194560090995844436003490163639237026140111543278904631444360068200007125410240201116348547060024443600217000060584502202111150234580977444436000000000663955018161111332556805707444360082400004257450220811116262109058294443600766000044084502208011163743710622644436008650000481643023080111512030606226444360087900005145430230801115155728)
 (.leaf 6226444360096200004744450221411115911664062264443600920000048995501810111152037270502244436007900000530550020080111930269908859444360063400007201410241401115385122080304443600942000081375002014011174932450774644436009820000820850020140111541040009080444360041300008437350270201115279818084784443600215000083883502702111158530320775344436002320000840435027021111992652807753444360066400008523370260211119567357073124443600779016286283502702011158397210867944436006130000890541024020111570727005295444360055800007100370260211115695776083714443600742016270363902514111158332500465844436007790000743239025021111594790909322444360068900007095310291401114986224))
 (.node 1 (.leaf 8073444360076600386677390251411115754483083054443600686080972014102412011159607670729044436008190038346639025080111558163908197444360079302775119390251401116161820105924443600486146783773702614011159698631038344436006820277809039025140111612104009715444360079902778162390251401115791535105924443600682000082042903014111160826971052544436005020000828030001140111609130609693444360050700006946370261401116081754087264443600503000060513702614011160540190899244436005380000642337026141111588469410592444360001500008011675131611115689416105924443600001000071904752116111188811071059244436000020000759850020161111919947910592444360000700007655550181611115615799)
 (.leaf 10592444360001500009043650141611116451001105924443600015000090436501416111163771241059244436000190000896970012161111987866710592444360001900008959700121611119811931105924443600019000090517001216111169991631059244436000190000904970012161111591449710592444360001900009052700121611115982019105924443600019000090527001216111162245821059244436000190000905270012161111573255610592444360002700008988500201611115589385105924443600028000089864502216111193666421059200036000330000901745022161111609744510592444360036600008957450221611119003271105924443600283000056484502216111152108221059244436002830000556445022161111906267910592444360028300005408450221611116113154)))
 (.node 2 (.node 1 (.leaf 10592444360014800008688575171611115747709105924443600170000090415751716111163556671059244436000600000904665014161111536474710592444360001900009047700121611114246746105924443600019000090447001216111199422901059244436000100000903162515161111644155710592444360000000007057450221611115994066105924443600000000068844502216111161367471059244436000000000776945022161111970348210592444360000400008967525191611115527586105924443600005000089285251916111162256951059244436001830000892460016161111535642710592444360006400008940575171611116150077105924443600215000087716251516111158361731059244436002320000904460016161111634831810592444360023200009021600161611119861498)
 (.leaf 10592000360023200007097600161611115284754105920003600232000083566001616111160077051059200036002320000573947521161111483271610592000360023200005987600161611114828517105920003600232000075204752116111150002501059200036002320000564845022161111916040710494444360000200004984450221611119096199103674443600000000049044502216111158160051036744436000130038482745022161111573586310592444360055800004904450221611114974018087674443600007000031474752116111157884241059244436000020000469950020161111589084410592444360002700008508675131611114606984105924443600771000082047001216111185207921059244436007090000904170012161111849555310592444360077100009033700121611114788027))
 (.node 1 (.leaf 10592444360060100007753700121611116860094101664443600232000075296001616111157755521058244436002320000730470012161112081096910592444360023200008851500201611114972494105924443600232000086005002016111152802061059244436002320000841250020161111443344209350444360061303886142430231401114812624105922783600825349250003902512011158919741059244436007420000504631029121111503301110592287360083903884907310291211119075131105920003600824027749783102912111189945101059200036008370000497831029121111514097010592214360044200007066550180801115956503105922143600592000066675751708011159524541024344436005920000879857517120111609036309013444360087000008526410240801116297593)
 (.leaf 8799444360080302777763350270801117303374105924443600576000059204102402011158614001059244436005170000812341024080111529901505446444360066400005522410240201116032384099144443600682000042643902502011159488510991444436006892661670141024021111516761410592000360066407086483410240801116039215071814443600682000038833902502011157523961059244436006820000418739025020111620032010592444360068200003687390250201115902757105924443600682000035914102402011161493990898844436007770000667541024141111617489106989444360019800004998370260201120122043077384443600006000047953702602011159106430867544436000110000597637026020111602313909371444360087000008698430230811114981467)))))
 (.node 8 (.node 4 (.node 2 (.node 1 (.leaf 6226444360017600005416370260801115811764062264443600714000039664102410111151807500502244436008360000525145022100111588582408076444360096900008241450221401116162556105924443600845000090124502214011161401081059244436008460000889041024140111566994907601444360047700008388350270201115670078074534443600183000082203302802111156381260944744436004860000901745022020111390630105146444360066400006111350270201116190995067434443600186016171733702602011162715510528444436005280000683933028020111614735704999444360042314644587370260201115923161041094443600766000049983702602011157283960777344436005670000471835027140111625742608796444360076602767353390251401115790854)
 (.leaf 8613444360061300006653350271401116438929083784443600567003757133302814111158451820703044436006390000396637026140111584533107451444360077100376543370261411115848551090614443600698038769553102914111162148021059244436006820161809029030141111598449410592444360068200007983290301411115816285103704443600704000085733000114111160681180957644436006390387804941024140111576451804728444360062312475507370260201116441282084774443600709352557933702614011160394620951944436007660807780937026140111567775509598444360082400376925390251401115933311066274443600824027660123902505011140520721059244436008240037760939025140111888937810592444360015700009047625151611114751669))
 (.node 1 (.leaf 10592444360018300009029525191611118871940105924443600020000090466501416111165645731059244436002470000680257517161112038703810592444360002000006859675131611119702575105924443600000000068844502216111157935691059244436000110000685450020161111901770810592444360001100006989625151611115844559105924443600027000073527001216111161864941059244436000150000897067513161111591775310592444360001900009052700121611116728733105924443600019000090527001216111164129131059244436000190000905270012161111918410810592000360002800008957450221611116179622105920003600366000066104502216111152584751059244436003660000656245022161111901252510592444360036600009006450221611115835772)
 (.leaf 10592444360023200009050675131611115841133105924443600283000055644502216111150109731059244436002830000861445022161111933348210592444360019200007490525191611116004024105924443600033000090296751316111149885381059244436000190000905270012161111459171710592444360002600009042675131611118783085105924443600019000090417001216111188013841059244436000190000904770012161111609940910592444360000000007190475211611120090174105924443600000000077684752116111158660671059244436000020000774050020161111542555810592444360001300007207500201611119678635105924443600413000088906501416111159799841059244436002320000898560016161111590093110592000360023200008356600161611119314180)))
 (.node 2 (.node 1 (.leaf 10592444360023200008604600161611115528257105920003600232000086046001616111193370011059200036002320000855760016161111621558310592000360023200008604600161611116050035105920003600232000083566001616111160582241059200036002320000540845022161111506124810592000360023200006135600161611118726439105920003600366000088665501816111150484830902744436006890000474445022161111523621210592444360000000005864450220711115581972089984443600002000044214752107111161705270876744436000020000273047521071111970618910592444360000207064699500201611115877868105924443600006000044214752116111153203961059244436000010000588447521161111601737310592444360006400007263575171611115196742)
 (.leaf 10592444360005500008227625151611115335745105924443600771000090377001216111148159021059244436007710000901770012161111471509110166444360023200007976500201611119380382101664443600232000084765251916111192926151058244436002320000879950020161111604880110592444360023200008833500201611119125561105924443600232000084125002016111148858670826644436005400276594943023140111474240210592278360079015344257410241201114936612105920003600771049451372903012111147488051059213236008190000694033028080111548309810592132360063900007082575170801115352348105921323600567000060475501808011193624401059213236005400000503452519080111621008809022444360045002766792525191201116072785))
 (.node 1 (.leaf 6199444360057600005029410240201116342021095974443600824049486074102414011161626380737944436006170037796741024080111594762807379444360068201613687390250201115705838105924443600698000045324102402011160963920453844436008480000804941024020111631790709468444360079900007174450221201116241602105924443600782000075754302314111160074430833044436007791161582539025140111604402608851444360046701615914390251401115571591045794443600669060271254102402011160663880495344436006340000720141024020111602551704767444360062300006966410240201115784336075184443600853000070003502708111159412770761144436007790000442235027080111584923406226444360056700002884350270801116148630)
 (.leaf 6226444360045000002741350270811115976138062264443600824000034304302308111152902120502244436005050000481643023020111646038410592444360062300008957450221401116456514076014443600837000089574502202011163025681059200036008450000872943023020111969239607453444360051700008447350270201116065631093034443600517000070543302814011157264941040144436005170000808435027141111581101104977444360064320057454410240211116186202050554443600689000075003702602011146855381013044436006820000747629030141111632902309761444360070400007607330281411115361972105274443600502000082803000114111160913060962144436005640000682937026141111607124010208444360059202756938370261411116039695))))
 (.node 4 (.node 2 (.node 1 (.leaf 8915444360057900006201370261401115923444086264443600824000060903902514011139267951059244436001440000735235027160111929773310592444360019200009023475211611115851189105924443600116000090476251516111195125161059244436000480000905170012161111627281110592444360002600009034550181611116365159105924443600006000067235501816111155024971059244436000050000690347521161111532850010592444360058500006676700121611115792513105924443600026000081087001216111165003231059244436000170000797360016161111630515910592444360001000009039600161611120205020105924443600033000090527001216111166007491059244436000210000905270012161111642598010592444360001900009052700121611116794455)
 (.leaf 10592444360001900009052700121611120019096105924443600019000090527001216111170839511059244436000190000905270012161111984457510592444360001900009051700121611115878747105924443600019000090527001216111144111270000062636000190000905270012161111935194900000626360002500009038575171611116220078105920003600215000067025251916111152603471059244436003220000901347521161111602823410592444360027300009028500201611115704721105924443600148000090375501816111162228411059244436001980000904762515161111563223010592444360022100009051675131611119212194105924443600283000057884502216111154827941059244436002830000564845022161111935671710592444360021500005900500201611115663462))
 (.node 1 (.leaf 10592444360001900009044700121611120589834105924443600019000090517001216111146985261059244436000010000901655018161111630261910592444360001000009026625151611116486922105924443600000000078714502216111157438381059244436000000000779545022161111619724310592444360000000007768475211611115497022105924443600113000077365751716111157115841059244436002320000740460016161111629713410592444360023200007563600161611115862331105920003600232000075636001616111155327091059262636003070000868857517161111930690210592000360028300008649600161611115341841105920963600576000089115501816111150186621059244436005760000540845022161111914385510592444360057600005078450221611119079335)
 (.leaf 9027444360059200003952450221611115934690090274443600621000036564502216111159073721017844436007710000381145022161111508831110592444360002500006064525191611115965973101674443600164000055705501816111158027060924344436000000000261545022071111534673910592444360000000004283450221611115709011105924443600771000085187001216111143062661059244436002570000883155018161111588923410582444360023200008412500201611115785195105824443600232000079765002016111161652690975844436002320000754750020161111649083410200444360023200007976500201611115739287102284443600232000079765002016111149555790780644436004670385605845022080111600887400000444360050507044744450221401114872830)))
 (.node 2 (.node 1 (.leaf 10592444360071400004742270311211115677873105924443600790000047342903012111189668681059200036008070000497831029121111589974110592222360068200365606390251211115734486105920003600682000058563902512111158911981059200036006821664731739025120111897685510592000360068202757036390250801116218347097704443600549000050345251908011159339750945344436002830000659250020080111605060809854444360016411597066550181401115900647051374443600567000072014102402011160881841031244436005850000826241024080111639457306532444360063400004894390250201116151504054464443600656000041484102408011153733641059223436007090000544041024080111607356910592444360071900007350430231401115516571)
 (.leaf 10592444360059200004780410240201115795595052784443600450000062984502202011157337030594144436006210000565341024020111587726204048444360068200005029410240201115943573073944443600837000068583502708111162587550606844436008030000531435027021111595548306282444360069800003339370260801115288529062264443600719000034063902508011189590650622644436008190000375341024080111908104110592179360082500005029410241001118927246105921793600836038447174102405011154433360885944436005050000272739025020111936347408859444360025700004717410240201119589049049524443600634000076463902514011161823581023744436001160000739245022020111616135208231444360060100004042430230201116455596))
 (.node 1 (.leaf 8231444360074200006966410240201115651052105920003600322000083413302802011158423560454244436009200035893047521020111562076104272444360082900007426450220201116602223105634443600271000074762903014111159262201059244436008240274760939025140111571920510592444360076601597462370261401116010127078804443600366000031393000007111133255680810044436004380000425730000101111332556810592444360006400009049650141611114958849105924443600467000066345251916111156863621059200036000330000661250020161111572114610592000360000000007602450221611119382232105924443600022000067335501816111157009581059244436002210000801460016161111605951910592444360060500009052700121611116000332)
 (.leaf 10592444360003300009052700121611116551102000006263600019000090527001216111161439230000062636000190000905270012161111632317600000626360001900009044700121611116313236000006263600019000090447001216111189770200000062636000190000905170012161111889741600000626360001900009051700121611118832071000006263600032000090527001216111156368031059200036000220000903662515161111489851210592444360001600009044600161611116038599105924443600033000090446001616111158734251059244436002320000905167513161111587898310592444360025700008986575171611115635547105924443600283000063294752116111162014231059244436002730000617147521161111946729610592444360002400009037700121611115833724)))))))
 (.node 32 (.node 16 (.node 8 (.node 4 (.node 2 (.node 1 (.leaf 10592444360001900009052700121611120865109105924443600019000090516751316111150647721059244436000190000905167513161111657840010592444360001900009051675131611116203479105924443600000000073584502216111156568331059244436000000000629845022161111615709110592444360000000006542450221611116040359105924443600000000074954502216111195534681059244436000000000776750020161111599779010592444360005700008700600161611115905824105920003600215000085576001616111159844881059200036001760000863757517161111906320910592000360034900008611525191611115922596105920003600585000086676251516111159264111059200036005760000868857517161111548579610592444360057600005173450221611119168814)
 (.leaf 9027444360061700002944450221611119439280091924443600835000027214502216111155906550962944436000030000252347521071111510494410592444360000000004516450221611115403885105924443600033000084026751316111186578761059244436003340000887662515161111590945710592444360052800008906650141611115100693105924443600232000080404752116111158140421016644436002320000742850020161111558422810166444360023200007885500201611115863091105824443600232000075475002016111191777871058244436002320000766750020161111610795110582444360023200007168500201611116153244094234443600232098873405002016111162092740853244436002320000530550020161111638315008553444360023200004944500201611115806330))
 (.node 1 (.leaf 7664444360054000005221450220801115335670000004443600835000048493102912111159714621059227836007190000498329030121111573174310592444360083502745046310291211114984079105920003600682271356063902512111148555941059200036006820384567939025121111903760410592444360069801596829370261401119426683105924443600413000072104302312011196658410555844436007190000844141024020111629027509597444360087002748763410241401116261293105920003600682000071254102402011158079250512644436006210384778641024140111622527010592154360070900007984475211401116083316105924443600842038486945002014011191992001059244436008250000879950020140111946651310592444360079900008678475211401119574378)
 (.leaf 10592444360077700008849525191401119596588105924443600273000062714302302011157146260582244436001340000497445022020111624240710592444360068200008818450221201115962044099254443600807000081233702614011159908020708244436006050000471741024020111633933005941444360061300004717410240201119965821044224443600682000065434102402011166168100872744436004470000648341024081111332556808727444360044700006483410240811113325568087824443600832000060323502714011159681540782344436006560000531837026140111575048207302444360069800006393390250201119187581049524443600601000030374102402011157501241059218136002830000418739025081111619253704397444360062100005809390250201115550693)))
 (.node 2 (.node 1 (.leaf 4397444360071900007210430230201116717167043974443600601000080843502714011161211270491944436006270000745535027020111614272904919444360055800007392450220201116151393072974443600467003489105751702011160616080794344436005340000889945022020111378002107867444360082400345525390251201115719205081634443600366000042573000010111133255680942044436003660000533830000101111332556807889444360060500004257300001011113325568105924443600508000057243000016111133255681059244436003660000627030000161111332556809073444360014400008649600160711116444742105924443600601000090085002016111159085161059200036003660000678457517161111949537110592000360022100006364450221611115795054)
 (.leaf 10592000360001600006667575171611115700335105920003600000000076024502210111157284241059244436000000000794745022101111958479210592444360000300007948475211011116252254105924443600293000090476251516111153161631059244436006170000905270012161111955129310592000360002100008032650141611115068045105920003600021000090206251516111155569141059244436000060000899652519161111565724710592444360006400009041575171611116214268105924443600026000090477001216111158888571059244436005760000904157517161111950817610592444360010000009042675131611115885474105924443600019000090477001216111162288431059244436000190000904970012161111595664310592444360001900009052700121611115990338))
 (.node 1 (.leaf 10592444360001900009038675131611115743552105924443600019000090426751316111160221321059244436000190000905167513161111572337310592444360000900009036600161611119262912105924443600000000058654502216111154795141059244436000000000654245022161111556360110592444360061700009028700121611116184541105924443600617000090447001216111162676291059244436000000000900355018161111619668610592444360000000009016550181611115959003105920003600000000079925501816111192711681059200036000020000867155018161111560010410592000360000000008584550181611115306297105920003600027000088665501816111191931961059200036005920000881360016161111578701110592000360059200008724550181611115263941)
 (.leaf 10592000360055800008940575171611115907474090274443600592000054774502216111159892560902744436008770000395245022071111542331910592444360077100004984450221611115371560098394443600016000035155002007111155749310888944436000240000653547521161111599540009433444360006000004780500201611119043123105924443600011000038365002016111156484661059244436000550000815562515161111537608910592444360018300008283500201611118848652105924443600232000088926001616111156998601059244436002320000879857517161111897836410592444360019800007450525191611115762766105924443600215000075475002016111159617861059244436002320000804047521161111680083210592444360023200007865475211611116024499))))
 (.node 4 (.node 2 (.node 1 (.leaf 10166444360023200007693525191611119101158097914443600232000074505251916111146413990979144436002320000734050020161111550133910582444360023200007008525191611116633513084764443600232000053215251916111158028900857044436002320000530550020161111620043008629444360023200005305500201611116003365087744443600194000053055002016111162600840952144436001980000734050020161111613291808065444360048600005865450220801115601285000004443600656098566853702612011160896671059200036007190700505829030121111877682510592444360079000005058290301211115533539105920003600870038251103302812111157449621059200036007040000567939025121111904894210592000360065600005524390251211115154033)
 (.leaf 10592444360033417197417450221201115889012099664443600585000081924102414011156911750813944436008390489871141024140111663234910592444360092802728727370261401116395520105924443600790038280834102414011161663711059200036006560000761345022140111598250110592154360069800006483410240801115747759105921543600777027287085251914011159187191059215436007710000852845022140111595177510592444360082400007914430231401115884757051264443600621000088335002014011161618480512644436006560000713447521020111950483705126444360068200007201410240201116128305050724443600682000057604102402011159042030909944436008860000694841024140111644586809125444360065600007681410241401116694307))
 (.node 1 (.leaf 7065444360062300003836410240201116221070042664443600686000059204102402011170044731059244436005920000768452519140111677832110105444360059200007376475211401116268653074164443600799000032934102408011158513240655344436006640000361537026081111556950210592000360068600003014390250811115717998105920003600836000029793902508111153711020939944436007790000869450020140111566978106567444360082400005653410240801116104043105921813600656000047804102408011189870200439744436005670000638435027020111570077704397444360062300008008350270201120589239064774443600505000075063302802011162678501059244436006170000900352519100111518187505057444360054800006566450220201115686245)
 (.leaf 5483444360047712356012390250211115905711100734443600714003369903702614111151047391059244436006050000572430000161111332556810592444360018400009048675130711116439936105924443600060000090486751310111157723451059200036000030000771747521101111625861310592444360000400007844525191011115805257105924443600019000081266251510111197217201059244436005850000905170012161111951722610592444360061700009052700121611119091578000006263600617000090517001216111155753070000000036000270000894870012101111596958010592000360002200007533650141011115550703105920003600021000090356501416111189687330000062636000210000904362515161111529214100000626360002100009020625151611118770089)))
 (.node 2 (.node 1 (.leaf 10592444360000300009008500201611115538418105924443600011000090265501816111160734571059244436005580000901657517101111591716010592444360002100009037700121011119792673105924443600021000090477001210111197220141059244436006340000903352519161111525082910592137360060500009041575171611115583760105924443600709000090516751316111195263471059244436006890000905270012161112034765810592444360001900009047700121611116357903105924443600019000090486751316111204794341059244436000190000905067513161111641292110592444360001800009051675131611116235582105924443600017000090516751316111160456841059244436000170000905167513161111962854110592444360001000009020625151611115417578)
 (.leaf 10592444360000000004984450221611115139471105924443600000000066414502216111156630721059244436000240000898657517161111622243610592444360061700008969700121611115543125105920003600000000089665501816111196561321059200036000000000787155018161111963406310592000360000000008622550181611115803323105920003600215000085845501816111191765591059200036005760000887955018161111551951110592000360059200008757600161611115434272105920003600576000085845501816111158322900899744436006010000533845022161111551865609027444360071400003304450220711115281382090274443600904000039524502207111190709861015844436008360000490445022071111544687410287444360000900004123475210711115625322))
 (.node 1 (.leaf 9433444360015700005196475211611116095502094334443600226000059235251916111160951670943344436002260000622752519161111584864709433444360023200008909600161611115968234105924443600226000084325251916111191730251059244436002320000756952519161111581057009433444360021500007181525191611118814019094334443600207000073405002016111156324430943344436002320000775447521161111593831509791444360023200007934450221611115307734093114443600232000072145751716111152871260864244436005050000616745022080111577898210592000360060500006236410241201115556553105924443600799145355583302812111152930221059244436008191235897143023120111590239610592444360059200009044600161201115259010)
 (.leaf 3950444360086500007978370260201115751615071334443600947003385163502712011160443060544644436008370000676639025080111632016905446444360062300005305410240201116307072105920003600634015666214302302011157192211059215436006270000804047521021111618789110592154360087000008614450221401119124720105921543600837000087104502214011157263640512644436006820000592041024020111583361204156444360068600004213390250201120048730075634443600689194267184302302011160734400480444436006430594738643023020111575329310329444360066400007285410241401116974242059414443600601000041484102402011161990960594144436006270000592041024020111652546205006444360054900006966410240201116081143)))))
 (.node 8 (.node 4 (.node 2 (.node 1 (.leaf 10198444360046500007376475211401115948454065714443600837000044904302308111163233760629244436008370000629845022041111602618610303444360074200008815500201401115830279035174443600845000060584502202011160036621059218136008450000342145022020111585398110592181360028300005701370260801115671444043974443600558000055654502202011161403401059243236006980000703639025020111592430304200444360077102707247370260201115847141080934443600704015566414502214011161579260408744436006210155428345022020111588172308340444360059200326058450221401115930949077594443600779000071383102902011144727101059244436005060000593030000071111332556810592444360014800009043625151411115938060)
 (.leaf 10592444360028300008866550181011115734305105926263600505000058644502210111149574691059200036000130000694155018101111575793810592444360001300007787600161011115876269105924443600017000077046501410111160641341059244436000150000773362515101111585562110592444360044200008806675131011115565320105924443600627000090447001210111152479410000000036007900000891352519101111569579600000626360018300007413700121011115500872105920003600198000072686751310111155040861059200036004670000722552519161111899096200000626360032200007390575171011118923998000006263600024000090256501416111157001540000062636000260000900062515161111920925310592444360002100008642675131011116009006))
 (.node 1 (.leaf 10592444360002100008655700121011115745265105921183600634000090335251916111156378921059211836003070000904965014161111568843410592118360006400009052700121611115638540105921183600064000090527001216111193344781059244436000190000902870012161111619491510592444360001900009051675131611120634848105924443600019000090516751316111168916221059244436000190000905167513161112049435710592444360002500009052700121611116434442105924443600005000090385751716111161468881059244436000150000904865014161111618878610592444360003300009047625151611116842715105924443600016000049844502216111151827501059244436000000000498445022161111898878210592444360059200008285600161611115532467)
 (.leaf 10592444360061300008356700121611115931765105924443600585000086225501816111160279411059200036004310000712155018161111576155210592000360011300005943550181611119675353105920003600558000086715501816111154451111059200036005760000862255018161111915224110592000360057600008532550181611115516691105920003600627000088315501816111193112851059200036006860000847137026161111585101510592096360071400006788290301611115991310105920963600714000068302903010111159608140899744436005400000497043023161111566240409027444360080300323250430231011115138777089104443600890000027214502207111157505241059244436003560000835345022161111578382610592444360061700008883430231611115676725)))
 (.node 2 (.node 1 (.leaf 10592444360027600008910575171611115747774094334443600144000065354752116111157997000943344436000570000656550020161111560656609543444360023200005901500201611119347233093494443600232000062285251916111158141660853044436005280032685450020080111627802010592000360062701556049430230801119171646077794443600621114969244302312011147697681059217536006820000560639025121111506217208534444360019800006158370260811119418000104884443600592003269014102414111191729371048844436008250000538333028141111541528610592444360084900008846410241201117773578103534443600980000082412903014011159891801059244436009150000831829030120111527583205199444360070901557314410240201116077001)
 (.leaf 10592097360022100005645430230201115962727105920003600669000061843902502011157314311059200036006010795752047521140111557097110592260360089600008870475211401115671314105923543600896003288524752114011153598510512644436008440032879950020140111959150805126444360079000006758410240201119797232041564443600682000042133902502011161777681017644436004670000706041024140111643085606687444360063900005440410240201119716184047374443600549000049974102402011159283371059244436008700000891243023120111618250009550444360084500008528450221201116176209048224443600939015435444502202011159390361059218136009280000401143023080111930004110592432360080301545440450220801115367434))
 (.node 1 (.leaf 4200444360066405923534410240201115783587057624443600709059256534102402011196563380436644436006390000381737026020111541911004600444360061700005233410240201119478839045944443600682000058654502202011193885770402744436008780000880343023020111609895706519444360096700008883430230801116572228000004443601111000088904102402011161260310446444436009520154798645022020111419330507204444360036600002944300001211113325568085764443600366000046623000012111133255681059244436003660000593030000071111332556810592444360021500009047625151011115532562105924443600431000088325251910111149446411059200036006170000588347521101111544576910592000360046700006737450221011116077191)
 (.leaf 10592000360002400006326525191011115785110105926263600018000074676751310111195054001059244436000250000749570012101111591439710592444360002500008074700121011116078295105924443600028000080916751310111159453281045044436000210000766970012101111591752610450444360048600008906650141011115365831105924443600623000088136001610111193179761059244436006430000901950020101111570392300000000360083600008944450221011116278260000000003600467000087634502210111195286910000062636000260000683757517101111947837010592000360019800006886650141011119233401105920003600157000071866501410111194216401059200036001040000746767513101111915940210592000360022600007650600161011119115820))))
 (.node 4 (.node 2 (.node 1 (.leaf 10592000360013400009044700121611115794081105920003600021000090356501416111157764501059244436000570000903065014161111587424610592444360002100008806675131611115890867105924443600021000087306501410111194638961059257736000210000843462515101111588190710592118360003200009048675131611115114398105924443600021000090497001216111158720201059244436000210000904170012161111606088810592444360002500009041700121611116418477105924443600021000090497001216111162208011059244436000550000904970012161111707909310592444360006000009041700121611116811712105924443600060000090377001216111167810271059244436000600000904770012161111990224410592444360005700009052700121611116445069)
 (.leaf 10592444360004800009052700121611119842506105924443600060000090516751316111159318511059244436001130000904965014161111642986610592444360001600004662450221611115291499105924443600007000053775002016111152005671059244436005760000666055018161111517898610592444360057600006506550181611118770197105924443600576000081765501816111147496911003244436005760000498155018161111592493410592444360057600008490550181611116152850105920003600576000084905501816111195210451059200036005760000743355018161111557009810592000360057600005794550181611115409170105920003600576000060205501816111159226160960444436005760000858455018161111586389010592000360057600008584550181611115520511))
 (.node 1 (.leaf 10592000360071400006724290301011115236930105920963600714000067502903010111160216750902744436002830000463641024101111596929609027444360083611473496350270711115509966085284443600862003127214102407111155038101059244436003840000860741024161111642700510592444360022200008865575171611115910896094884443600000000025234752107111155771280849744436000241887382147521071111931680009433444360001300003893500200711115708220094334443600028000082276251516111190395830943344436002150000699650020161111592640109433444360022600007360525191611118789243094334443600192000074505251916111156169620943344436002260000769352519161111575456809433444360021500007340500201611115884345)
 (.leaf 9433444360019800004944500201611116124945094054443600232000046165002016111161264070902444436002320000658752519161111611578308396444360051700006167450220801115560002071414443600540015469394502208011194751720777944436006341654565341024121111562866310592175360064313795351370261211115707289085344443600540000054214102412111157122090853444436002930000672439025081111603404310592444360048600005241390251411115421531042684443600837059264834102402011161523190544644436006640000541639025020111622705110592097360062300004463390250201115717108085674443600704000088495251914011193165170856744436006211147704337026140111916434110592260360077900008852475211411115119164)))
 (.node 2 (.node 1 (.leaf 5126444360047700005793370260201115910953041564443600682000042643902502011160574350485444436006820000346639025020111595688704854444360066400003940410240201116034130090474443600613000047804102414011154716190465644436006130000544041024020111637262507074444360053700006891430230501114928619105924443600870000089714302312011169730830512044436009550791544045022020111576026308949444360097302674283450220801115972383061554443600870369243354102408011156997810576244436008190030545643023140111563604205762444360040000306393390250811119325426052694443600634000058574302308011155142800187344436009210976604943023020111467963209748444360068600006871390251401114766719)
 (.leaf 8718444360036600004744300001211113325568071084443600366000028353000010111133255680957744436003660000540830000141111332556808595444360037200004662300001211113325568105924443600371000088646001616111154339591056944436001442377870852519121111501921210592444360016400008847550181411116187717105924443600027000089697001210111154908071059244436001360000897067513141111573814010592444360002100008970675131411115791765105924443600148000090255251914111152579721059244436004130000883350020141111511549610592000360071900007370550181011115395120105920003600025000074957001214111190151921059200036000240000810870012101111536610800000626360024700007629475211011119782013))
 (.node 1 (.leaf 626360034900007544575171011119273563000006263600322000072036751310111193817431059200036003840000870970012101111568296610592444360005700008667625151611115970663105924443600605000088306251516111157022081059213736000210000811557517101111540312710592118360006900008339675131011115768393105921183600048000084026751316111158686441059211836000210000904170012101111529315010592444360002100009044700121011116318833105924443600060000090356501416111200445901059244436000600000860870012161111981349310592444360006000008419700121611120278786105924443600060000082047001216111168565301059244436000600000819067513161111638574410592444360010000009051675131611116116201)
 (.leaf 10592444360000000005078450221011115713524105924443600013000056355251910111191056321059200036008190000523252519161111559510910592444360047700005464525191611118954258105924443600576000054785501816111156668001059244436005760000862255018161111567228610471444360057600008244550181611115787149100324443600467000078796001616111155202611059200036005760000783055018161111557876410592000360057600005878550181611115886302105920003600870000078582503212111160496711059200036007140000680929030101111562461010592096360071900006872310291011115361528105920963600349000080163902510111151172000899744436008700030324137026071111497077208997444360077900003656450220711119213182))))))
 (.node 16 (.node 8 (.node 4 (.node 2 (.node 1 (.leaf 9323444360086700002673430230711119318151093234443600567000079144302316111160502881059244436006390000846243023161111602753910592444360023204838940575170711116185553085944443600018037738214752107111190060780943344436000090000501550020071111943182609433444360000100003893500200711116010157094334443600025000060305251916111195044530920344436001480000530550020161111581671408868444360017600005613500201611115529725087654443600134000046165002016111155599200990344436002320000772455018161111589825307141444360054000006641450220801115930251105921753600669000070863902512111156630571059256736006860000560639025121111573066010592444360038400005131370261411115716245)
 (.leaf 3495444360087000006012390250201115930833047184443600617000056534102402011160617051059209736000570000651045022020111604431708567444360068900008815500201411115615703105922603600689000081623902514011153872521059235436008960976887245022140111595772810592354360087201538930475211401115803111105923543600870003089575002014011160341141059235436008250000889750020140111622614005126444360063401538708525191401115904559041564443600682000067584102402011164596440415644436006270000487543023020111611037004156444360064300004148410240201119658090061674443600766003046863902502011166894690928444436008980000630631029140111585064808486444360064300005732390251401115818096))
 (.node 1 (.leaf 6687444360059234995639390250201115758091048984443600621000059344102402011154726371059244436008700000892643023141111526586010127444360070907897542390250801115809187089534443600585002943713702608011159091140364544436006341227544041024140111570013903645444360093300004283450220801119087548057624443600862015247444502208111158098110679844436008320886497445022080111947237505269444360083601525865450220801119106424052694443600689000058654502208011153784370605844436005400000605845022020111936852804123444360054000008488450220201115601655096664443600933015288834302308011160156300875444436004260000604943023140111584870909062444360088500005888290301401115776236)
 (.leaf 10592444360037100008864600161611115433959105924443600371000088646001616111154339591059244436003980000891352519121111645022610592444360047700008924600161411114772347101374443600366000090265501814111185994161013744436004420000900952519141111869289110137444360059200008832525191411118762828105920003600719000069394502214111154570961059200036006980000585841024141111623483510592000360055800005856390251411115948688105920003600856000070104752114111160328191059200036008280000707547521101111580597410592000360033400007947650141011119313830105920003600517000078666251510111188656501059244436006130000768550020101111579680410592444360061300009034550181011115864144)))
 (.node 2 (.node 1 (.leaf 10592000360019800008655700121011115868765105920003600413000085376501410111194315431059200036005850000610757517101111520230707671444360051700005923525191011115798424105926263600601026660294752114111150147750000062636004310000650557517141111530315500000626360002100008999650141011115631192105921373600322000086806501410111157423711059213736002730000868065014101111571713110592118360002800008303625151011115686196105921183600028000087637001214111158258361059211836000210000870970012141111952263810592444360002600006824700121411119544485105924443600026000066986751310111195538761059244436000260000900567513101111987354810592444360004800009023700121011120025776)
 (.leaf 10592444360006000009020625151011120172051105924443600060000089697001210111159271061059244436000600000828470012161111659929510592444360006000009051700121611116309451105924443600060000090516751310111200013541059244436004230000566447521101111559520210592444360000900005173450221011119142733105920013600000000053384502210111189957941059200036000150000532152519141111505994210592000360000000004984450221011115541128099994443600064000053055002016111157849931059244436001760000602055018161111549181910414444360054900008688575171611119520537104714443600060000088237001216111160135371003244436005760000614755018161111528991009604444360006000008865575171611116110830))
 (.node 1 (.leaf 9604444360087000297858250321211115828907105920003600793144484213502710111150950030899744436008450000314639025141111571308908997444360054900002958475210711115150901093234443600858000025754302307111156632840932344436007040000721043023161111572909910592444360068200007210430231611115697796105244443600232000083385751716111158664120859444436000020000314747521071111522649808316444360001100003836500200711119170488083164443600000000059015002007111157449720943344436000070000501550020071111600146209433444360000600002858500201611119326490093314443600020000033164752116111159011580889144436001340000592452519161111598391409211444360054001526457475210801115966617)
 (.leaf 10592175360055805887057450220801119275717105924983600423058853863902512111191151590853444436003340789609039025141111580690208567444360077700008882500201411119674922085674443600714000078854102402011160264141059226036006430000748043023020111585456810592260360068600008588475211401115766998088414443600621000088164752114011159641940884144436006980000857345022020111547322208841444360077100008800475210801115971776041564443600621000084994752102011158050580415644436006860000573239025020111656617304156444360070900005525390250201116187466041564443600623000049974102402011161082690621744436006560000499837026020111947985309082444360071400006675410241401116020259))))
 (.node 4 (.node 2 (.node 1 (.leaf 9081444360054000005769350271401115256848090874443600862069169014102414011154841630668744436008250000697539025020111900674304904444360063900005793370260201116198094069294443600467000084414102402011152824560580644436005920000804941024020111616818407610444360087022555949430231401115700008088474443600908350658574302314011157444100364544436007420690545947521080111556353507061444360083700005440450221411117434509070614443600836002844164302308011211801160605844436004420000497445022081111565113406058444360060100005119390250201116094641054654443600605000060324102402011159264580412344436008240000896745022020111621094310137444360047700008694500201211115719243)
 (.leaf 10137444360047700008694500201211115574349101374443600592000086885751714111147562521059200036006170000627045022091111557936410592000360058500006905575171411115537285104724443600558000072816001614111150238861047244436005580000765060016141111569011309604444360004800008925575171011115947488105920003600664000090266251510111158086091059218436006270884665462515101111560825810592184360062100006654625151411118848922105921843600592000066516751314111155112531059200036007090000596243023141111895258800000626360047700005900500201411115592615105921373600021000090436501414111156856401059213736003070000893762515141111525518010592118360013600008628650141411115915703))
 (.node 1 (.leaf 10592118360035700288642675131411115542869105923613600215026585086751314111159139011059236136000280028577170012141111599773810592444360029300008846575171011115887694105924443600064000088237001210111163110591059244436000640000904970012101111971642010592444360010000009036600161011115766923105924443600215000090436251510111159186531059200136000040000544850020101111517273310592000360001600006737450221011115612164105920003600055000057244502210111153875511059200036000180000448441024101111515281509999444360003300005676675131611115916178105920003600558000072635751710111156698341059200036000600000762157517101111618319510592000360006000007621575171011115845540)
 (.leaf 10592000360006000008893575171011116040086105920003600060000089105751710111161938420960444436000600000879857517101111596056410592000360087000007903250321011116074682105920003600779000079603302812111155692971059209636008240000535137026121111569207810592096360082400002716310290901115430240105920963600779002844004102407111155644780932344436005850000592041024161111566251910592444360014400004462390251611116089178105924443600442000058944302316111158864520833244436002320000687757517101111578485809429444360002100002858500200711115359102091554443600007078633285002007111190161450915544436000090000295847521071111574856608316444360001702653670475210711119219227)))
 (.node 2 (.node 1 (.leaf 9331444360001900003963475211611115733053095814443600027000050695501816111154960230942644436005170265723545022080111614289910592000360054000006997450220801119538194085344443600634002855734102412111157325630853444436006690000535741024121111572278608534444360068200005083390251211115956391085344443600682026550003902514111194565091022244436001860586593441024141111574798804291444360082400006766390250201116298062046724443600682000044343902502011162894610884144436007040786895750020140111907370308841444360074200008915475211401115736396088414443600643000086784752108011157791340415644436005851140627637026080111974661706327444360063401505888370260801120232700)
 (.leaf 6327444360065600005343430230201116543056089304443600682000063654102414011146769510797144436009280000673745022140111488690308301444360094200008080430231401115450814061954443600558000079783702602011155113250559344436006340000812341024020111626013905374444360062700007753390250201115774113044384443600845000067243902502011153856770458244436006890000604943023020111604871205168444360054000007125410240201115919855060714443600275000057113702602011158812460889844436007091701781643023140111581114306798444360083601495233410241401115991032060584443600790014947444502214111194819550476944436006980000497445022140111569253205831444360089500008890410240211116235937))
 (.node 1 (.leaf 4496444360070400005399350270211114418315101384443600226129374133302814011151138710978344436005400000733933028140111499083709417444360061300008724550180911118703065105920003600617000069394502209011153856041059200036002830000694265014141111915300210592135360006000005771700121411115320718096044443600682000076855002010111157102171059200036002470000899345022101111607517910592000360068200006680625151011115642326076714443600639000061075751714111148684091059244436000210000904062515141111913724710592585360006900008730650141411119020917105921183600027000090447001214111156701191059211836000250000859967513141111884278110592361360006000008924600161411119382843)
 (.leaf 10592444360013400008938600161411116273747105924443600170000090265501814111199455631059244436001160000903960016141112024503910592444360006000008938600161411115928756105924443600477000090456251514111159296531059244436003410000887760016101111613124109460444360035700008779550181011115952910094604443600621000086264752110111198141141059262536000720000566447521101111600454010592001360001400005102475211011119057234105920003600010000041204102410111156908770999944436000040000482745022101111584991110592108360007200008890650141011116318864105921083600060078576506001610111161582761059210836001000000768060016101111967864810592108360034100007680600161011115809335)))))
 (.node 8 (.node 4 (.node 2 (.node 1 (.leaf 9604444360017000007682575171011119097255096044443600186236878915501810111188303070960444436000600000896557517101111978552609604444360006000008846575171011119828188096044443600157000088646001610111160740360960444436008320000669627031101111559379910592000360082400008187370261211115723104105920963600771000024773502709011155488931059209636008240000202131029090111487016210592096360052803725145430230711114781336093234443600400000045774502207111157828670932344436000000000378135027161111574701510457444360002200004748370261611115243155099674443600019000041395002007111153913860916044436000140000350147521071111587248209246444360002800004817550181611115696425)
 (.leaf 10212444360010400005785625151611116586515105924443600486047875524302314011161837891059200036005170000629845022080111949252910592333360054901496939450220801119213326105924983600627000055304302312111154074450866044436004420027545543023121111507280010592500360056722495648450221211115654290097094443600669002754884102414111160001360970944436006560000500039025141111589758509709444360062300004754330281411115901968105724443600592037271164102412011157429360712944436005920000865041024020111603402004801444360071900006933410240201116287932105920973600664000043354102402011159237690983644436007990478854843023141111582878110168444360068901497417450221401115683482))
 (.node 1 (.leaf 10211444360057600007501430231401116017128105714443600384000074164302314011158094870884144436007990000869539025140111574759608841444360082400008899450221401115801622088414443600704000088164752108011192038350415644436006560000876345022080111569103604156444360057600006271430230801116275205081344443600621000054404102414011147778650420144436006230000414841024020111558251405245444360068900008192410240201116528339049224443600669000074544102402011157599590543644436005670000756741024020111584276609224444360068200007786410241401115633961091094443600793000078854102414011155501990422244436008350000759043023020111573183105899444360032400005825390250201115888395)
 (.leaf 7024444360094600008174450220801115970180084914443600842000065963702614011159969811059220436008560000571137026141111594475104769444360079901485114430231401115865087066854443600540000068134502214011157822021026744436008930000888343023080111639132909417444360061700008584550180901114647438092314443600477000085435751709011151752731059200036004230000797262515090111557437710592000360030700008209575170901115853111105920263600100026365757001209011151011361059213536007770000699955018141111578822209604444360091700007909450221411115792321096044443600911000079104752114111158554281059200036005760000779350020141111590361810592000360057600005777525191411119094263)))
 (.node 2 (.node 1 (.leaf 8012444360062700006683575171411118821160105920003600714000057394752114111147649951059262636006640000608655018141111504737210592000360051700006534475211411115105597105921373600026000090316251514111187204601059211836001340000900160016141111541792710592118360005509706583575171211114681912105923613600024000060677001214111156393361059244436006210000904562515101111933818610592625360068900008553390251011119498143105920013600003000053564752110111154319061059200036000280000642645022101111514182810592108360000700004257410241011115589472105921083600018000049704302310111195019470999944436000330000582943023101111582426610592108360006000008948700121011116538916)
 (.leaf 10592108360063900008909600161011115342229096044443600704000087435002010111152950400960444436006390000896557517101111596192209604444360071400006809290301011119195964105920003600719002683223102910111165912141059209636007820263537633028090111567098510592096360066400005047310291201115432556093234443600719000033654102414111158046110932344436000000000442235027161111612074509323444360000000004350350271611119643078101494443600000000046453502716111159038141059244436005920000578845022161111581752110592444360014400008443550181611115713909104334443600170037183566001616111157251360870944436000060000563652519071111464460209135444360000700007026550180711115916586))
 (.node 1 (.leaf 7926444360001100003730600160711115714364099314443600477000065794102414011162784581059204236005400000605845022020111594927608660444360064303715653410241211119108932069504443600656000086974102402011163212640511744436006270000693341024020111588414609457444360060100007210430231411116101300097454443600558097071515002014111147263490974744436006640026714843023140111578154408841444360060100006740370260201115825629041564443600689000086354302308011157281540415644436008190000797837026080111606307304156444360054003716796390250801115814532063274443600621000060584502214011166254050436544436008070000727139025020111610863309737444360066900008123410241401115954938)
 (.leaf 4166444360065600004559410240201116088664054284443600467000060324102402011159411510579544436005400026667541024020111570714405711444360054900006675410240201115967259105924443600921000088964302314011161099300904944436009490369848741024140111586499410592204360084600006758410241411115381029105922043600682002559494302314011156044910636744436005580000664145022140111603440905062444360090600008578430230211116420162105924443600714000088854502216111155598061059244436006230000881845022071111606118010592444360040000008614450220711114881951105924443600714036983063102907111156675801059244436000000000607145022141111506148510592444360004810506697450221411114193526))))
 (.node 4 (.node 2 (.node 1 (.leaf 9016444360079900005900330281401116173369098484443600467000083705251909011153342520923144436005400000780552519090111534980210137444360043100005980475210901119371682105920003600232000071684502209011157481711059200036003840000761852519090111608151410592035360015700008042625150901119399039105920003600307000070085251909011158702460960444436009110000784445022141111547987510592558360077100007717475211411118924045105920003600450000077414752114111194911811059200036005580000573947521141111530527210592000360051712215923525191411118889965105920533600585150367256001614111152485770801244436006690000557341024141111498011110592000360062700006029475211411115307080)
 (.leaf 10592000360063400006089475211411114917264105920003600766000061714102414111148865421059211836004230000663257517121111504931110592361360051700005751675131211119163306105925913600486002586286501412111157707131059244436000280000903370012141111578889310592444360003200009046650141411119558315105924443600322000085973902510111161991361059250936006980369900645022101111596353009460444360083700008355390251011115698024094604443600828078151693902514111196200741059200136006640000856841024101111953013810592276360036600008763450221011115736966105922763600349000087814502210111191448161059200136005850000593045022101111919899610592276360022600005411550181011119286683))
 (.node 1 (.leaf 10592000360007200006049430231011115775688105921083600019000059584502210111192885961059210836000021868683447521101111940278410592108360006000008709700121011116305534096044443600656068567853502710111189657250960444436006050000626633028101111593861809604444360071400006889310291011116028082096044443600714000083063102910111159036890960444436007140000678829030121111537757610592626360079900008268310290911116403065105920003600799000080163902509011159069821059200036007770000565333028090111578924910592096360080700003164330281201115358134105920963600824000025153102912111153530530932344436007790000356137026121111948931409323444360001600004822370260711116038386)
 (.leaf 9323444360000000004505350271611116140411097424443600000000042863502716111157233050926344436000000000422535027161111607608810149444360000000004169350271611116152151099224443600072000046233902516111157022190845844436002310000425745022161111628063410592444360000000006010450221611115830063082994443600019000054316751316111158722150967044436000040000756952519071111607812709184444360001100007414600160711115689432082454443600528000065424502208011166015141059204236005670147595845022020111608741610385444360065603697187390251411115756594104954443600592000077365751714111160825360834544436005850000883141024020111561419006009444360046700007061410240201114213289)))
 (.node 2 (.node 1 (.leaf 8883444360070400007011430231411115976365048474443600704014769334102402011158423980884144436006270000729943023020111579383808841444360074201477116450221401115768092041564443600819000086264752102011158124630846744436006010000708035027020111976797204156444360062300006670430230201116347689058704443600643000050294102402011157889320904644436006820000648341024140111620310608794444360059200006032410241401117691544091174443600835000080804302314011163034250819344436004670000523341024140111557777800084444360096100004744450220201116103154097604443600517000068354102414011154109240977144436005490000683541024140111561628705554444360051700007454410240201115499790)
 (.leaf 5393444360061300007885410240201116758076051984443600634000078854102402011164655070787044436009820000860741024081111523137608004444360095104757914430231411115601196105922043600714000070904302314011191728760513944436007090000697539025140111594456510592444360062300009002575170711115583504105924443600477000062025002007111158806111059244436004230000889847521161111500592110592444360071414318322310290711115349773105924443600627002483063102910111156332220507944436002790000315433028021111619939610506444360048600008743500201401114369880105920763600400000076354502209011159457021059207636001340000689143023090111616053810592000360022100006884450220901119572330))
 (.node 1 (.leaf 10592000360023200006939450220901115967343105920223600232000077125501809011197335391059200036003490000731047521090111918577710592000360036600007630450220901115661699105920003600634000069974502214111153818990681444436008530000821645022141111511031510592558360059200007495450221411115726425105920003600623000072255251914111154958151059205336004500000676462515141111535218108012444360047700006533450221411115692371078964443600617000061154102414111155389841059200036006640000603139025141111914651810592626360066400006271430231411119063094105920003600540000074954102414111156409081059211836005760000635950020121111893695710592118360051700006359500201211119151599)
 (.leaf 10592118360010000006611575171211118827612105921093600779002465065501812111153309201059205636002930260903065014141111576347408170444360022100009047700121411115820540105924443600021000090447001214111157662121059244436002830000905167513141111647428010592444360062700009028500201411116345767094604443600450000090385751710011158831310946044436008190000868341024141111579872709460444360059200006143450221411119301663105925183600567000060714502214111193948931059227636003490000852845022141111936462510592176360043100008656525191011115917332105921763600183000056575501810111160961591059200036001440000587855018101111943077410592000360019200005411550181011119260801))))))))
 (.node 64 (.node 32 (.node 16 (.node 8 (.node 4 (.node 2 (.node 1 (.leaf 10592176360014400007116450221011115834325105921083600018000072816001610111160263011059210836000600000893470012101111990825210592108360003200006621430231011118969055105921083600585000058613102910111156511320960444436004860000615733028121111543677909604444360018300005914390251211119270557096044443600714000064113102910111158161650960444436007140000660229030121111510221210592000360071400008107310290911115374165105920003600540000060663302809011158603811059200036006130000611135027090111920535710592000360074201463131350271201115434531105920003600617000032934102412111154839651059209636007090000328837026121111887018609649444360080301462660350271211115368121)
 (.leaf 10284444360001512185029410241611116160077083144443600019000042574502207111162588680965044436001340000715247521161111637318109190444360018600006144450221611116209855084614443600517000067374502202011159629211059204236005050000699745022080111944889710592042360061300006789430231411115899943086604443600072000042574102408111156922381059244436002211431479741024141111544825007352444360051700008818450220201115059022058204443600467000069334102402011159812050582644436005580000725441024020111596403404672444360063900006575390250201116357123049484443600682000066214302302111157597970687744436005730000822239025020111548133404650444360071900006677390250201115962905))
 (.node 1 (.leaf 8841444360082800007116450221401119477538088414443600779014688314102414011193648510846744436007770024887245022140111939241408467444360060115657125410241401116261358043544443600664002455454302302011155264630854344436006820024738643023140111553165409608444360062100006835410241401114874567048414443600621000058414102402011161529300598444436004670000667541024020111590998005088444360070400247967410240201116146790105924443600643000088534502214011162763921059244436006340000740041024140111605530804752444360063400005841410240201115927784096154443600613000079674102414011159604070511544436006340000756741024020111599476707916444360098200007885410241411114768802)
 (.leaf 7694444360094000008325410241401115208502047314443600623000067243902502011161313530560844436001640000407639025020111635699605949444360044200006445390250211116362368105924443600686000087124302309011157454771059244436002700000856050020071111577544310114444360071409657661350270711115997971094664443600793014580283302809011161118531003844436007770000849837026091111600416209264444360071403675861310291411114687901051974443600682025970574502202011155857741059244436004860000885150020140111391589507118444360055801458881525190201113594154104094443600215000088004752108011156573960966444436004420000737545022080111568609310592076360013400006904450220801116385646)))
 (.node 2 (.node 1 (.leaf 626360014400006621430230801115798242105920353600064000076354502209011158635091059202636004770000681345022090111541341710592000360061700006884450221411116134429105921973600613000082374502214111157101331059225936006690000821645022141111530246910592259360060500008216450221411115597346105920533600349000065335251914111193211611059220036006270000648350020141111562283510592200360063400006232475211411119146426105921183600605000064555002014111189412091059228636006640000779252519120111910604610592286360086500006725575171201115507911105922863600891258865065501812011154504011059225636003340000552560016121111578905110592444360063900009001475211211115676957)
 (.leaf 10592444360084900008614450221411119517856105924443600273025988534502214111159988921059250936007660000889041024141111598949309460444360062700005788450221411115799866105925183600341000088014502209111157406411059256636008280000839233028091111614763710592176360025700005972500201411119308652105921763600198000058935751714111158607331059210836000280000898267513141111986179110592108360028300006711430231011115851835105921083600009000067374502212111194110960960444436002470000632239025101111571832209604444360062100006482330281211115642251096044443600714000067502903012111154744460960444436007140000611529030121111886124310592000360054900006032350270901115757518))
 (.node 1 (.leaf 10592000360054900005940350270901115863131105920003600664000022883902512111151751830964944436008240965274531029121111924353309649444360063400004737430230711115754381096494443600183000071873902507111160116710926344436000150000460137026161111598617908886444360001400004110370260711116027910103434443600198000081935751716111153505650963344436003660000747855018161111576478709290444360061300006818500201611115243231100354443600656000076394752116111155615470894344436006210000696645022161111577032410366444360062100007934450221611115193909105924443600562000075524302314011164700430763244436005050000651943023080111621601408660444360029310475440450221401115779248)
 (.leaf 8660444360058500005488410241411115889568105924443600601002369903702614111157492340604244436003990000693341024020111648089805435444360061700007125410240201115879041046674443600669000064834102402011160745270969244436008560023798447521140111599186305655444360061700008049410240201115512849053814443600777000080494102402011195610750884144436008190000693945022140111589547408841444360082800008840390251401115880135084674443600669077773694102402011158878500927944436006820023773145022140111570332808821444360066402597731450221411116051105052034443600528000059344102402011153129350543344436005280000623641024020111640581107726444360058500004780410241401116212538))))
 (.node 4 (.node 2 (.node 1 (.leaf 9917444360061300008192410241401116336291089214443600643000065194302314011154976281003444436005280145819241024140111553658704125444360080703678049410240201115995244053984443600621014578854102402011165654670552644436006210259796741024020111538290806026444360021700006058450220201115023458077074443600139000069974502202011150110220866244436006980000601239025140111559350707890444360090700226298450221401116152617105922043600704000070863902514011160441250943544436006340000788433028091111571470003858444360077900002335370260201115714725096044443600585000046863902514111160415140896744436003490876499837026021111597013710592444360044200006975390251411119184975)
 (.leaf 10592444360066939538566350271411115381810105924443600623000086663902509011157428141055144436007140000754631029091111617000710480444360071400007232310291011116283693105924443600469000071232703114111161073360627044436006820258297133028081111628348603451444360068224313065330280211115026763044364443600682000041513302802111162748360968644436007090258809733028081111490413309001444360077707767223350271411116191472037344443600898000073393302802111159070550321444436008960366691633028021111531716304940444360068212145737330280201115203622053014443600669293560283102902011158180261059244436001920000894445022120111500237209664444360047700007873500200801116277279))
 (.node 1 (.leaf 9559444360021500006966450220801115955666105920353600134000070844302308011161077791059202236000330000673745022080111962574310592022360061700007523450220901119776523105921453600634000076874502209011190611001059214536008480000771747521141111529182210592000360079300008180450221411115843657105920003600617000082164502214111156966211059200036005400000789350020141111501052710592000360056700006711430230901115408622105920533600423000078445251909011155585801059205336006170000794667513090111949857407896444360045000008197500201411115835524105920003600549000081775251909011160035881059200036005850000752345022090111570548810592137360044200007845500200901115611576)
 (.leaf 10592200360052800008927550181411118875956105922003600634000068344752114111157268771059228636007790000815652519140111598849710592109360071900007310475210801115672246105922563600032000064574752108011155282481059205636004500000647562515121111548728408170444360041300008866550181211115491058081704443600623000058803902512111155294611059200036006230876440845022141111605709010592305360070408768317450221411115973118094604443600413000088704752109011159822760946044436003570000862255018090111953487009460444360046700008412500200911119151843105922763600307000089684752109111158384851059248536008580000856433028091111961081110592176360019800009021600161411115495810)))
 (.node 2 (.node 1 (.leaf 10592108360002100008877600161411120031312105921083600032000090426001610111160809901059210836000600000901770012141111604622010592108360006400006483410241211116089813096044443600144000070004102409111194847770960444436007140000641131029121111593881009604444360071400008189310291211115907498096044443600682000051593502709111156430201059200036006690000507845022091111557317610592000360065600006058450220901115702877105920003600933000053993502708011155592281059200036008360000576935027090111580912310592000360062300005888370260901116016857105920003600450025859143902509011158187991059200036005400000383533028090111902305410592000360061700003065410241201114967231)
 (.leaf 10592000360082401442367310291211118782655105920003600824000031153102914111156076000964944436000570000485039025071111592417409649444360000400005044370260711120001495100214443600007000045594102407111192967381059244436000190000890762515161111574265809319444360003300007251625151611115871026088974443600567025855654502207111154091731059244436005490000761345022161111556862110533444360048600007135450221611115435471094314443600283000073034502216111193717571053344436006170000677645022161111971244710592444360048600007953475211611115785377103754443600505163170574502212011159939010683044436004230000853947521020111669227005270444360061300006850390250201116389698))
 (.node 1 (.leaf 9434444360070417477447450221401115584201053294443600709036679783702602011158469160979244436007140144841643023140111576940608483444360085300008944450221401116228353084674443600621047185264102414011160004741004344436005850022855550020140111536459805182444360051700005841410240201115373134055474443600605000067584102402011159554400595044436005420000683541024020111572400808446444360080900005586350271401114851189090894443600669000076814102414011161598351059244436006131429885345022140111602400008999444360062301446365410241401115604881094814443600621000078854102414011158599670448544436007820022736941024020111598872104990444360074202587967410240201115790115)
 (.leaf 8546444360080700007432390251401115622291046014443600878000054404502214011196323870460144436008820365523341024020111969247304171444360083600216939450220201116108277096604443600656149580973302809011155185980960444436006430000816333028090111963783409604444360036600005686350270901116232274095884443600136112842174302302011156967390989844436005670874743239025090111589154308769444360074209617826310291011115958957035544443600766287045413302814111196126180653144436006560874561537026020111957641506531444360066419155888370260201116004760054954443600664196544883502708111162756850593144436006823555528533028081111609917404480444360066909616074350270211115840424)))))
 (.node 8 (.node 4 (.node 2 (.node 1 (.leaf 9312444360066900216384350271401118700331034094443600824169175423902502011159583191059244436006640000828831029140111495267806550444360064311288168310290201116573940105924443600221000085413302812011163105800949644436001830000685039025080111595709009496444360010400006675410240801119555058094964443600032000070574502208011157815821059203636000240000711645022080111569170910592000360065600006737450220901115389408105920003600627000078444502209011189242041059214536005400000774245022090111554823510592000360087100007686475211411115478696105920003600617000078735002009011153397751059200036005490000687452519090111535754710592166360057600006519430230901115539154)
 (.leaf 10592053360047700008315500200901115819028078964443600576000072735002009011159704111059200036005490000768745022090111886650210592444360048600007871450220901118694690105920003600486000077184502209011187916551059200036004500000774050020090111555821710592200360027300007572475210901115245873105922003600540000082445501814111186427141059228636005850000666947521120111548025210592286360050500007116450221201119057802105922563600144000062545251908011191885780817044436004670874666757517141111557736208170444360046700008935675131211115303740081704443600357036588524752112011154730200817044436005580000578845022141111579820110592444360044204704630525191411115697624))
 (.node 1 (.leaf 10592000360070906795159350271411115639876068144443600714000086364102414111157447671059250936008350000864235027141111929072209460444360047700008678475210901115595210105925183600853000085543302809111159594151059256636007900000872737026091111983628610592176360013600008994575171411115800005105921083600069000088465751714111160587060960444436006130000700035027091111584637909604444360085800006121350270911115672322105920003600779000052223702609011156471011059200036004500874601239025090111564953110592000360083500003414310291211115279777105920003600704000049704302314111158866161059244436001760000721043023071111920967109282444360023200003670475210711115566464)
 (.leaf 9858444360034903654780500201611115793369088974443600714000067764502216111155642861059244436005280000761345022161111575007310533444360063400008317450221611115720474086604443600341047042834502214011157149511041944436002730257640443023141111932873310581444360034900005357410241411119784080105814443600643162975264302314111190582721059244436006340470901552519141111572812910592444360059204709037550181201115326968047334443600656000066004102402011163672310992444436007990576741339025140111594517505314444360068200007938390250201116181521104624443600605077587995002012011155413620385144436007190000465143023021111671485804306444360070400005440410240201115519159)))
 (.node 2 (.node 1 (.leaf 4744444360071400006365410240201115419411102694443600714000075234502214011160301170794544436008070021574441024140111574587809443444360057609617786410241401116040436105924443600613000073854102414011161458890506144436006130000768141024020111548193404227444360076600006790410240201115871199051244443600467000065434102402011154929200614844436002490000571137026020111588651608336444360077900007500370260801115840075072834443600719000068583502708011159818410757644436008721493433541024140111563271204171444360077100003239390250201119812833039134443600621002047174102402011161201360378544436006800000346639025020111622689810110444360018602567500370260901115735659)
 (.leaf 9604444360068200008282330280901119434765096044443600643000075063302809011159854440950844436001760000703043023020111581576709853444360055800006946370260901116004148087694443600257057552334102402011161192870355444436005581354648341024140111599222203554444360068602566655330280901116287741035544443600682025660663302809011162685090355444436006820142657433028090111601831503554444360068200008028330280811119827429035544443600682014281633302814111195864371057844436006640256822033028081111597355309302444360061300008441410240811119636982101884443600349000072935251908011162065370835044436005920000763045022080111942333610592036360060500007687450220801115685751))
 (.node 1 (.leaf 10592036360062300007574450220801115684290105920003600605000077694502208011156484801059200036006270000760245022080111905354110592145360061300007548475210901115609136105920003600643000076845251909011152881711059200036005280000686243023090111588662310592166360066400006905575170901115291201105922153600517000077424502209011190432381059221536003570000796445022090111575080410592215360050500008237450220901115437467078964443600423000073764752114011155006651059200036000280000776945022090111525680710592000360048600007769450220901115554735105922003600486000076304502209011190826351059220036004860000782045022090111568401210592200360048600008964600160901118935125)
 (.leaf 10592286360054000007629475211401115872813105922863600450000074174502214011194387451059228636005850256715150020120111591423008170444360034900006917500201201115731232081704443600384000088465751714111192940830817044436003340000853255018121111929704008170444360046700004862500201411119084493105922763600341000087634502209011160924091059217636004770000888152519091111578842110592176360006000007657500200911119109298105921763600450000064574752109111192953361059210836005920000603837026091111600349610592108360061300008742390251411115730515105921083600799000085543302809111192484781059259236006890000862537026091111590205910592108360085800008604350270911115924894))))
 (.node 4 (.node 2 (.node 1 (.leaf 9604444360086700005376330280911115785698105920003600870036361573302809011158649021059200036008850000585935027080111618095210592000360083505753202310291211115733447096494443600450000082194302307111161708470964944436005490256788541024071111591248409649444360055800007125410240711115804973096494443600819000049844502207111157565200905344436008280000482745022071111909316209534444360080713548098450220711119008124095344443600682000078384502207111157555791059244436006390000783845022071111928423009858444360071406777934450221611115782564105924443600714000080984502216111160735280974944436006560000773145022161111905956510533444360054000008853450221611119295406)
 (.leaf 10533444360071400008818450221611115980187105924443600714000082414502216111160922221059244436003220000817445022161111946019910570444360023200008241450221611115831069086394443600486046962714302302011157361240791944436005050000566245022140111929993810213444360042303636829370261411119357292105924443600803002089864502212111156728051059244436007770677904157517141111509959004858444360068200007029450220201116615180046304443600682036364834102402011158138221015644436007660000811747521140111654988310592444360087900008143270311201114711803065974443600977014286553502712011164624061059244436007660000865535027160111458215504077444360068200004559410240201115676553))
 (.node 1 (.leaf 4445444360076600206142430230211115844612086154443600682000060324102414011145154790841344436008190000738643023140111642760508307444360070400206966410241401115714134098504443600686002081924102414011155331730885444436006050000611541024140111639103005315444360052800007285410240201114509759053534443600613000077864102402011171993140675344436006340000865041024020111625753407659444360005800006738350270201116044101061494443600249000057113702602011158865160602944436002170000605845022021111502345806031444360021700006058450220211115023458054814443600643000085284502202011170940440396144436006640000399737026020111589073004078444360061700003421410240201120020612)
 (.leaf 1737444360066400003466390250201116104086067324443601095000080494102414011156696680236244436009381351808043023020111608974503034444360089813516519430230201116599619055094443600617000079674102402011164120460584744436005400000699745022020111631376410088444360068200008107310290901115946918096044443600567185380973302809011197301800629744436002070000502941024020111618517408817444360021511226776450220211115771649035544443600100000035884302302011158623630355444436000720770664145022140111618886303554444360068200008466330281411115781622105784443600682025484793302809011156458321057844436006820019872841024091111585835409716444360068219589017700120911119054526)))
 (.node 2 (.node 1 (.leaf 9716444360065600008998675131011115517302048054443600872000086553502702011162770520386944436009330000865535027020111593590704537444360094100008655350270201115170443068684443600601000069394502208011156874061059213036006170000749545022080111925726310592130360062300006298450220801115984094105920003600639000062984502208011157484851059200036006230000757445022080111922038710592000360065600007574450220801115703696105920003600617000075724752108011158685671059200036005760000784452519090111922397110592000360079300007652575170901115848293105920003600585000079115501809011153984991059216636006640000691860016090111520525610592215360057600007718450220901115453885)
 (.leaf 10592215360054906768385550180901115654634105922153600558000081775251909011195476731059207836006210000735845022090111581708810592000360010400007718450220901118977134105922003600486000076874502209011151102121059228636004670000743847521140111586897310592286360041300007235450221401116152588105922863600623000075445751709011162693890569744436005760000691750020140111627954208170444360060500006712525191201115922676081704443600623000070475251914111157326230817044436004420000887047521141111572989108170444360032200006453550181401115607172105920003600431025489115501814011192120071059200036001830000883062515090111570364610592305360059200008871430230901115716946))
 (.node 1 (.leaf 10592305360040000008916450220901115932018105922763600431000088014502209011159825251059248536007090000854637026090111645312310592176360054900008057475210911115906401105921083600592000074954502209111191183711059210836005920000718437026091111578600610592108360059200007294370260901115799669105921083600592000073483702609011193863481059210836005920000601837026090111559022910592108360070400008699370260911115856965105920003600704000042133302809011157670151059200036007660000638133028080111586377710592000360087502545986330280801116142870105920003600766036171953302808011198091901059200036006270000594035027080111619383210592000360062102542971330281401115607226)
 (.leaf 10592000360057626684371370261201119118016105920003600849000036912903012111159627381059200036005170000442235027100111586898210592000360079900003637350271001115139729105920003600846000040483902510011150454781059200036008320361622237026101111567050510592000360063402547113390250711118860566105924443600777000082924302307111154472931059244436005050000831745022161111593435710592444360063400008317450221611115748616083544443600413000058844752102011162088301021344436007091208712235027141111571390210592444360059200199010550181211114937934105924443600617000090436251512111161352720715344436008070000900645022021111573352008241444360060503618986450220211116162930))))))
 (.node 16 (.node 8 (.node 4 (.node 2 (.node 1 (.leaf 4738444360077900006917390250201116414112044784443600669000059744102402011160835780935944436008280000725441024140111608134309645444360099700008655350271201115149194087524443600957000086553502712011157939670914544436008560140858233028120111595234210592444360080700008655350271201118492171050264443600682000065794102402111158069480450244436007420000603241024020111594802210031444360084500007305410241401116322884083284443600771000071254102414011162278370777744436009190019603241024140111561436209461444360068200007967410241401114317701002614443600984001960903902502011143434740466144436006640000654341024020111672488606906444360014900006292370260201115972472)
 (.leaf 4339444360079200006426450220201115757184040234443600777000070193702602011158997170769844436009200018568547521140111591758105360444360085800184875430230201116330474034104443600853000060494302302011160439580457344436005170000441643023020111574311004527444360061300005343430230201115812794085274443600517025359494302314011159326710924744436005492186632239025140111607613905708444360054600007227430230201115913269058534443600505000077864102402011157102240432844436006210000796741024020111994404004474444360084600008219430230201116172495059234443600467000069394502202011149232540982544436009190000809733028140111580102610592444360065600008268310291401116051826))
 (.node 1 (.leaf 9604444360056700008358330281401115902769062974443600198248536564502202011157629860355444436007790000271237026020111932859403554444360068200008602370261011115813900035544443600682025384473502709011158596300355444436006820139855535027090111575987103554444360068200008928525190901119046773035544443600682190889897001210011194073160971644436006820000901770012100111939836909716444360064300009025650140901119993676097164443600634000090396001610011200745800400544436009800000858233028020111474813607305444360058500007057450220801120055362073844443600442000070574502208011158473320738444436006430000709043023080111606731407384444360064300007285410240801119766552)
 (.leaf 10592099360060100006924430230801116250969105920003600423000071744502208011158567041059200036006340000723545022080111576983810592000360060100007891550180901115633989105920003600486000076575002009011193118091059216636006170000754750020090111577554010592215360058500007687450220901115622006105920783600592000071344752109011158580501059200036002830000788945022080111557216810592444360050500007630450220801115515462105924443600639000075744502208011153957451059220036005400000765847521090111903025410592286360054000007627500201401115859301081704443600634001876215751714111158325310817044436004130000662052519141111592820308170444360050500007180550181411115585726)))
 (.node 2 (.node 1 (.leaf 10592000360036600006733550180901115787285105920003600540000089785002009011155547790879344436004670000899345022090111547204110592176360005500008119450220901115764821105921763600467000088825002009011193235831059217636004860000825352519091111940946610592176360036601398158500200911115710751105920003600505000082164502209111152857851059210836005670000768745022091111943480210592108360059200007574450220911115906877105921083600592000072263902509011157776811059259236007140000816831029091111598306210592000360084600006574330280901115989451105920003600617013951863302808011158242851059200036008350000626633028080111601061808348444360056700005900330280901115829477)
 (.leaf 10592000360056708705345310291401115874660105921623600828000044622903014011158705251059216236007090674443631029141111596951810592000360055800007154350271001115364632105920003600634000071133902507111190127201059200036007990000855550020071111552633210592444360068900008816475210711115721890105924443600232000084125002007111157743691059244436002320000821943023161111585767610592444360023200008665450221611115869327102024443600540214476584752108011160425400880744436004000253645747521020111581080408638444360079909567660450220211115842275047124443600771000068503902502011160124210907044436006270000660041024020111963301004602444360077700006365410240201116310640))
 (.node 1 (.leaf 10592444360080700008502310291601115196807052814443600682000080494102402011170673910475344436006820000728541024020111590898106090444360046701396758410240201116051435047804443600793000063923702602011157886990464544436007190000499741024020111597103605441444360056700007567410240201116291252080984443600219000074954502202011152181350495944436006820000689431029020111668628704964444360062300007100370260201116144795081494443600669000060584502214011162757360841244436004770000601239025140111626040109571444360078200006835410241401116106316100274443600467000067593702614011133255680957344436003300000678639025140111546087304611444360069800007353390250201116417650)
 (.leaf 8540444360066400008306310290901116095016096044443600505000036793302802011158903400629744436004860673448835027020111588188706297444360044200007113390250201116043102035544443600016000045774502202011160083550355444436000180000372345022020111603701903554444360066900008056370260201119644008035544443600689000089926251510111153911560693044436005170000717629030021111607826506930444360046700007324310290201116347366069304443600613000074133902502011159313500730544436006010000752345022020111601848605790444360077900007055350270201119682097105922013600643000067593702602011158495581059220136004500000703043023080111963042010592000360062100007495450220801115833104))))
 (.node 4 (.node 2 (.node 1 (.leaf 10592000360070400007791550180801119380884105920003600656000078445251914011158026751059200036000280000765847521080111893518810592000360062700007764575170801115797675105921663600601013875234502209011155104141059221536005280000833045022090111537727310592000360052800007769450220801115624635091664443600528000078454752114011156494921059220036005920000763045022080111572922310592286360047700007438475210801115950166105922863600450000072524752108011160193771059228636005400000883447521140111916590705697444360055800008818450221401115857301081704443600113000063244752108011159110751059211236003070000604755018090111582349810592000360062100006999550180901115798717)
 (.leaf 10592000360062300007737550180901115441560087934443600592000088825002009011191451391059227636008360000902655018090111576235110592593360078200008847550180901119252105105921043600517000086115251909011192470381059217636001480138889357517081111564228610592176360002100008910575170801115444551105920003600026000088935751708011151780091059200036000210571884657517080111498483110592000360002500008893575170801118851189105920003600567000077694502209011192366301059210836005920000752643023090111914935310592108360058500007245390250901115652633105921083600592000073883702609011157532001059210836007820000854637026090111961506910592000360061700005900330280801116035534))
 (.node 1 (.leaf 8348444360054000004069310291401115832894086174443600540000067963902514111158659551059200036006170000539935027100111578439310592000360071900007000350270711115700134105920003600799000086005002007111192637241059244436006050000885150020071111588098510592444360001800008383450220711116028021105924443600033000080404752116111158910061059244436002150000820850020161111919272910592444360023200008334475211611115876317103804443600232000079344502216111155460311059244436005500000901655018080111905758410592444360059216227951550181401117410186098964443600505025271904752114011155439860969644436006210000632555018141111592244210592444360059200177911550181411115709593)
 (.leaf 8800444360068217947602450221401115968600075604443600682290374954502214011157956300922844436007420000712541024140111515058809364444360078202527254410241401116197459090704443600686000086784752114011161030521059244436008030767773045022140111601363405646444360068200008325410240201115567966089934443600567000073694102414011159206710576844436005670138544041024140111578892405569444360079000174998370261401115675337076134443600617001742643902502011162870320511444436006690000804941024020111598956204949444360061700007496450220201115812412085874443600613000062984502214011162401931016544436005280765832541024140111613536104714444360062100005857430230201115624394)))
 (.node 2 (.node 1 (.leaf 4328444360060100005934410240201119546661051434443600592000084863702602011167666660960444436006640000750633028020111961220009604444360060500003866330280201116270410096044443600704000048843502702011159775600629744436006690464391737026020111936547203554444360019825184148410240201115913935035544443600898000087273702609011160887720355444436005580000778150020090111591002406930444360046700007350430231001115995101049374443600467000070574502214111157762380493744436003410000692443023020111595057106930444360003200006579410240201119378918069304443600033000076024502202011193452870354244436002930000735939025020111605618900000444360109300008962430230201115662233)
 (.leaf 7649444360042300007235450220201119618324105922013600719000067593702602011159470190740344436004130000741745022080111584956810592335360061300007235450220801115832949105920023600828001679325251914011155363961059200036008351205786957517080111548555910592000360051700007844525190801115606293105921663600601000075504502214011156016581059221536005580000809745022140111576016910592215360047700008330450220901115213249105922153600517000067374502208011156534060916644436006390954799743023140111588483110592286360050500007844450221401119514384096984443600528000077935002008011162096021059228636004230000731047521140111569878105697444360084900008034625151411119085952))
 (.node 1 (.leaf 8170444360027300006874525190801115828283081704443600134000059804752108011158816621059211236006050000659250020080111571501210592112360057600006355500200801115781876105920003600605000067374502208011157558731059206236005670000654245022080111603597910592276360046700008503575170801116135482105921043600467000086375751708111199515031059210436005050000799050020081111575524510592104360040000008351500200811119053603105920003600024000089945751708011149228861059200036000480000896557517080111544321510592000360046700007718450220801115545774105920003600467000077954502208011157292641059210836004670000766045022080111550188710592592360057606717835430230901119465709)
 (.leaf 10592108360068200008602370260901119872575105925923600836000085973902510111162290051059262636005490000869539025091111590666410592000360079900006735330280801115976628105920003600592000059003302802011161058220834844436005400000591439025020111948277910592000360054000005510310290801116009094083484443600567000053393902508011159190030861744436005170000621735027140111581681408617444360057600004286350271001115754683105920003600682000080083502710011191434191059200036007140000832133028071111551624910592000360079900008463500200711115720855105924443600799000087995002007111157589361059244436002320000863543023071111600942310592444360023200008872450220711116192355)))))
 (.node 8 (.node 4 (.node 2 (.node 1 (.leaf 10592444360023200008317450220711116147911105924443600232000083964752107111158315821059244436002320000849947521071111601392210592444360064300007574450221401115917249103724443600617000075484752114011162338401036444436006820359799743023140111610385509541444360064100007566410241401115987834102364443600766000084874102414011157716250995944436006860000777743023140111615953709297444360087100008728410241201115408597053484443600682000081234102402011148481000837044436005580000565341024140111606316809353444360062300007786410241401115808084086724443600558000071254102414011165132820511344436005760000603241024020111626843403902444360087900165934410240201115888847)
 (.leaf 8624444360059200006365410241401116337127046454443600617000069664102402011204858340742244436001010000732357517020111638062506043444360021700006058450220201115023458076974443600585000048754302314011159605550917044436006340000644539025140111521163805713444360036600005958300000201115096953053684443600467000064264502202011157191820854044436005920000407639025020111589212009604444360070400005059330280201116139674096044443600704120351863302802011197929780355444436006390000328837026020111541061503554444360089600008727370260901115844681035544443600549000065963702609011161283860355444436004670000696645022020111571597403554444360046700007029450220201115999874))
 (.node 1 (.leaf 6930444360046700007116410241001115762740049374443600025000074174502202111162405020441544436002210000722639025020111605421904415444360058500007122350270201116110177048504443600865000088144102402011158692510764344436007980000898143023020111587312706575444360057800008575575170201116029147105920023600643013673955002002011159568161059200036007990000786957517140111508078410592000360060500007840575171401115653317105920003600592000077414752114011154560000982344436006050000776847521140111569923307896444360064301367660450221401115735975105922153600777000082164502214011192890541059221536005280000818045022140111917387310592215360047700008330450220801115711419)
 (.leaf 10592215360047700008216450220801115587110105924443600576000068134502214011159307531059244436007040358760245022140111911684510592444360070400008745410241401115730853102164443600613257381224302314011156279120916644436004861203796445022020111959450609698444360050506707438475211401115755407078494443600467000072255251914011157083700784944436005050000899360016080111602965009105444360050500009027600161401119317322091054443600486067089624302314011159611990910544436005670000900352519140111586599605697444360062100007621575171401115378828081704443600413000064264502208011158910160817044436004000000511443023080111930176710592298360052800006167450220801115807787)))
 (.node 2 (.node 1 (.leaf 10592112360054000007057450220801119834739105921123600656000072354502208011161940961059229836007041036714743023080111972818710592062360068900006579410240801119791581105920003600592000068844502208011158012861059210436004670000698752519080111570574910592104360046700008384450220801115572149105920583600366000083514752108011192332961059200036000210000900957517080111532424610592000360035700008994475210801115654350105920003600467000077424502208011195405161059200036004670000771845022080111926052110592108360046700007574450220801119273404105921083600467000079094502209011192050901059210836004670000787145022090111912494710592108360070400008559370260901119568581)
 (.leaf 10592592360061700008854430230911115778738105920003600832000086533702609111159986181059200036005490000547935027020111576041008348444360054900005755430230201115684269083484443600634000056533302814011193758760827644436005280000675841024140111595807208617444360051700006158370261001116085137105920003600528000043503502712111192020971059200036005920000403135027100111574387310592000360065600007753390251001115781116105920003600634000080083502710011155625511059200036007990000841643023071111578896010592000360079900008220330280711115802939105920003600799000086945002007111158447601059244436007660000883350020071111596384310592444360023200008781450220711116109389))
 (.node 1 (.leaf 10592444360023200008710450221611116090206105924443600232000084384502216111157904840881144436006010015705745022020111654607907212444360065601364875430230201115942899095534443600505000065424502214011159143450558444436005920000799743023020111644044410592444360084500008378330281401116408129050604443600467000062034102402111158150840491444436006050000584141024020111578249010475444360068200008568410241401114020352086244443600803000048943902514011161529320486744436005920000425741024020111588793107423444360010100007323575170201116380625066414443600125000070775501802011163590800872144436000490000780937026020111523319006045444360021700006058450220201115023458)
 (.leaf 6043444360021700006058450220201115023458060384443600217000060584502202011150234580406544436008340000614243023020111580329906432444360053400006892370260201115534873055124443600467000065424502202011147558260590544436004670000705745022020111661326005143444360057600004686390250201116370398096044443600617000051193902502011196353780960444436006980000603235027020112013239303554444360081900002616370260201115747643035544443600467000057693502702011194342880355444436004670000590033028020111579779603554444360046700007730450220201115744396105924443600915000087443702614011151478490677544436007770000762947521020111606571406968444360068600007385410240201115959448))))
 (.node 4 (.node 2 (.node 1 (.leaf 10592002360063405677766525191401118909202105920003600656000077405002014011189204310681444436007932226768745022140111572081206814444360077700007297450221401115928516105924443600689000078714502214111155894250646144436004500000762157517020111633623507849444360048600008878575171401115915089091054443600517000089675251908011159199530569744436005920000699745022140111581018608170444360045000006737450220801115834809105922613600477035669974502208011160386691059229836006170000749545022080111574116710592298360060500007089350270801116059547105921203600576000065743302808011160060681059212036006820000682937026080111918547310592000360064300007358450220801119376946)
 (.leaf 10592000360061700007235450220801119438893105920003600567000074954502208011194665311059200036004670014766045022080111590079410592000360046700007101450220801119083146105921043600467000082374502208111156457991059210436004670000836445022080111574980010592058360046700008397500200801115869305105920003600431000083665002008011193442751059200036004670000788945022080111912192310592126360046700007928450220801119301629105921263600467000079094502208011158127771059210836004670000784445022090111558122910592592360071400008553390250901115854984105921083600431000088714302309011160004701059262636007790000845133028090111577947610592000360071400008288310290901115758117))
 (.node 1 (.leaf 10592000360071400008107310290901115721550105920003600686000052853302814011158442260834844436008560000623641024141111549768410592000360050500004574350271001115874032105920003600549000038353302808011159962701059200036005280000378135027100111588334410592000360052800007000350271001116040663105920003600704000082624102407111156756521059200036007990000760837026071111610909510592444360077900008799500200711115896172080394443600643000068844502202011157550380648744436006690014595845022020111606483309551444360068200006641450221401116011954059894443600682000075504502202011160202800635744436005920000844141024020111546919310405444360077900008501390251401115908395)
 (.leaf 10249444360074202497908410241401116430879100184443600669000072974502214011160038290538944436006980000826241024020111643033105620444360077100008526410240201116204686060924443600707000086204102402011160586750589444436005920000694841024020111502845605363444360058501356483410240201115658450079134443600704000056534102414011162161830831144436006010000574441024140111591590704776444360068200007285410240201115298516066424443600125000070775501802011163590800603444436002170000605845022020111502345805485444360055800006158370260201116068118000004443600357000043354102402011164490780301844436003070000605845022020111607720009604444360071400006735330281401116344937)))
 (.node 2 (.node 1 (.leaf 9604444360046700004998370260201116029823035544443600799000029063702602011157339950355444436004860000678943023020111986638603554444360046700005427310290201116145637069304443600467000071484302302011160023030493744436004670000706831029020111612455104937444360035700006669475210201115925399049374443600006000071684502202011159904200493744436000030000744745022020111611715205970444360064300006798330280201115774572061444443600714000077414752102011160078390696844436006210000759850020020111599177610592444360082500007604430231401115587933105924443600824000077144302314011191244870938244436006890000762750020140111578580207397444360082800007297450221401115860217)
 (.leaf 6814444360077900007297450221401119242355105922153600627000075454502214011158240951059244436006690000798847521141111595149209698444360050514168968475211401120468051096984443600486000089565251914011206169620784944436006051115883252519140111604585809105444360061300006997450220201115953952056974443600825000052334102408011158376450569744436008030000575543023080111605381110592261360066400005857430230801119813818105922613600505000070574502208011159073021059244436005170000766045022080111891237710592444360047700007322410240801115762847105924443600486000072193702608011159191141059229736007930000720243023080111568870710592028360061300007417450220801115728260))
 (.node 1 (.leaf 10592000360046700007630450220801115893790105920003600467000069664502208011190851551059200036005050000829845022080111577001310592000360046700008331475210801119227395105920583600467000082565002008011158142541059205836004670000832952519080111530221410592000360024700008467550180801115729790105920003600198000084835751708011194776751059212636004670000798847521080111557555910592108360046700007891475210901115827099105921083600467000078204502209011158509861059210836006390000853839025090111935062510592000360068600007902310291001115888106105920003600627000060943102909011159478381059200036006690000551031029080111909454308348444360063900003817370261401115526273)
 (.leaf 8348444360095500004974450221401115396960105920003600617000056863502714011193033661059200036007040000796741024100111910872810592000360076600008219430230711115620755105920003600704000087435002007111157961981059244436007990000879950020071111968377410592444360071400008815500200711116031058105924443600232000089955002007111161146011059244436002320000901450020161111605220705924444360059204607252475210201115892686098224443600682000075744502208011160019400522844436006820000796741024020111686093508126444360062700006924430230201116106364063844443600870013478204502202011163545750507044436006820000788541024020111604698204803444360068900006790410240201116050618)))))))
 (.node 32 (.node 16 (.node 8 (.node 4 (.node 2 (.node 1 (.leaf 7655444360068200007650410240201113437067065934443600467000070604102402011161607540741744436004670000734441024020111608026006128444360048600006724390250201114826185041924443600766000065434102402111159335320761344436008370000677645022141111587360807877444360068900005440410241401115932384036944443600686000037534102402011159315090519044436007760000729745022020111459434606719444360038800006871390250201114600031054694443600613000062173502702011165096300000044436003340000441643023020111675333209604444360006900004709450220201116006122030184443600714000045863302802011160071590960444436002320000425741024020111552807603554444360063900004998370260201119530185)
 (.leaf 3554444360062300008504350270901119733148035544443600540000086703702609011159894350355444436005760000855535027100111598478303554444360050500006276370260201115804166035544443600467000062663302802011196281590355444436004670000621735027020111593373903554444360047700006158370260201119926713035544443600467000065023102902011196943660355444436004670000586131029020111586295906930444360046700007236450220201116332723069304443600467000065104502202011198108340693044436002470000578750020020111984681000000466360002600007275600160201116079427055084443600164000090105501802011162081440689744436006390000782050020020111602252206633444360060500007570500200201120131890))
 (.node 1 (.leaf 10592335360062300007395500200201115815919105924443600742000075744502214011159216941059244436008240012754847521140111560121710592444360068624787627500201411115081830105924443600719000076594302314111157230061059244436004350000902850020141111575708707772444360050500008994575171401120272057105924443600540000090025751714011158671090910544436006130000897747521140111965815909105444360064300006426450220201116060756105922613600623056561154102408011197916991059226136005921034673745022080111632895510592261360064300007523450220801115821911105922973600384000070604102408011192318251059212436001981483861152519080111874084310592124360002600008700600160801115147624)
 (.leaf 10592028360043100007572475210801115750438105921023600467000076024502208011157408321059200036004670000715052519080111592116810592000360047700007048475210801115816674105920003600477000084335251908011158307421059200036004670000821252519080111926275810592058360043100007842550180801115286724105920003600024000083826001608011158316601059200036002730000841452519080111586232410592252360046700008030525190801119110251105922523600467000080305251908011193646111059210836004670000801150020080111550291110592108360046700006939450220901115731144105921083600837000084863702609011158655201059262636008490000890541024090111595400210592000360062300004641310291001115900422)))
 (.node 2 (.node 1 (.leaf 8348444360063900004510310291001119963714083484443600664000075593502714111164597460834844436004310000425741024140112028325308406444360092000005662450221401115872767084064443600777000061674502214111159133951059200036006170000594035027140111967293910592000360066900007613450220711115544754105924443600799000089435002007111160364251059244436001920000901950020161111598827305794444360061800007252475210201115996802100014443600571000072354502214011159560450917644436006820000569931029140111573785808172444360059200006939450220201115980360064154443600592000066004102402011160196510501944436006390000611541024020111951323305341444360079000008487410240201116400596)
 (.leaf 4010444360068203545920410240201115427668049784443600682000072854102402011160418430494144436008790000859739025020111715314706482444360046700007000410240201114006473060074443600567000069484102402011163233640430944436006820000620341024021111538210407580444360068200004780410241411115646853033124443600682000031774102402111158844960603944436002170000605845022020111502345806439444360053400006892370260201115534873062294443600605000072284102402011176037430601044436004420000487543023020111629775503018444360036602464063410240201119791914030184443600477000042863502702011159679470960444436006340000411037026100111593206903554444360020700003753410241001115756683))
 (.node 1 (.leaf 3554444360062300004371370260201119496868035544443600634000084473502709011198055330355444436005490000854133028100111600062403554444360046700005653330280201116126712035544443600467000062663302802011159799820355444436004670000582033028020111609320003554444360046700006675410240201119587096069304443600413000065354752102011158788490000046636000270000661355018020111586487200000466360001600006792525190201115917119027704443600176000070614102402011158203790648944436004860000760443023020111601323406919444360078200007498430230201116170565059544443600686000071474302302011162557151059244436006690000782050020140111587746810592444360078201327767500201411115718205)
 (.leaf 10592444360050900008945500201411115737408105924443600380000090285002014111154991300680244436008030000881550020140111653201310592444360068203539016575171401115835388050074443600698000069034752102011159617150910544436004770000699745022020112015198209105444360062300006519430230201119734747069594443600549000055863502708011165163961059226136004860000752345022020111585407310592444360050500007602450220201115635647105924443600467000077424502202011156414160782744436004670000771845022080111568740010592297360048600006944330280801115726470096044443600431056477684752108011193756880960444436004670000825352519080111597903310592000360051700007216525190801119636592))))
 (.node 4 (.node 2 (.node 1 (.leaf 10592000360046700007464330280801115852211105920003600057000083485751708011195345281059225236004670000797147521080111562253910592108360046700007871450220801115647247105921083600467000068134502208011157195261059210836004670000699745022090111579703710592108360066400007030430230901119273883105926263600771000048213302810111157103450992944436006820000515935027101111565748708406444360050500004872410241411115771278105920003600540000065443502710111160767301059200036003490000831745022071111583932510592000360032200008416430230711115724324105920003600232000086144502207111159207631059200036003660000838345022071111578030510592000360079000008914500200711115791390)
 (.leaf 10592000360060500008995500200711119359988105924443600018000089675251907111157830811059244436000000000897645022161111609522405332444360042314805639390250201116016083049154443600613242159344102402011195657790516144436006052946623641024020111613651010592444360070936648780410241201116294328073154443600719056466214302302011164110700425544436006820000736941024020111604905306147444360069800008620410240201116124235064864443600467000070004102402011141995820803644436004670000744341024020111451161606041444360021700006058450220201115023458057124443600253000058654502202011152658600773144436001390000699745022020111501102209733444360087300006639550181601113325568))
 (.node 1 (.leaf 8451444360050500007569410240201116782372060104443600334000038094302302011159625370301844436004860000342141024020111593318503018444360059200003302390251001115642829035544443600714000084043502709011162070310355444436005050000865041024100111581142703554444360046700008523370261001119323155035544443600467000060323502702011160734810355444436004670000654435027020111984548303554444360046700005552330280201120042941035544443600467000055103102902011161484270693044436004670000632733028020111981267706930444360019800006772500201001116217369087934443600020000071505251910011195936740879344436000180000759150020100111614149408793444360001800006711430230201116027769)
 (.leaf 2770444360001700007545450220201116176306065634443600517000070993702602011160145800653544436005490000669929030020111539636908631444360043100006879270310201115697708069454443600764000080183502702011159054030811544436006430000771550020020111625223409982444360020600008376550180201116029784105924443600494000078735002014111156314400737044436005580000882043023020111642658205767444360058504586792525190201119615833050564443600627000067725002002011197286910695944436005170000711645022020111632379410592444360047700007359390250201115494090105922973600322000084083902508011155430541059212436000210000886460016080111887137509604444360022100008925575170801115869789)))
 (.node 2 (.node 1 (.leaf 10592000360046700007387310290801116078751105920003600467000072493102908011199653301059200036001340131817752519080111597936710592126360046700006993310290201115360743105922523600467000076733102908011191387991059225236004670000767331029080111576691610592000360046700007120310290801119154828105920003600467000069823102908011153819451059210836004673121582033028080111583415310592108360046700006199390250801119418905105921083600467013161583702608011194271201059210836004670000591439025080111589339410592108360046700006737450220801119781774096044443600366000071805501809011158957221059200036006560000516939025091111591444708348444360052800005281370260711115812284)
 (.leaf 8406444360036600004921390251011115792110093404443600558000051593502710111160598431059200036005400000485935027101111571554210592000360079900007613450220711115949383105924443600558000084884502207111194497691059200036005670000876345022071111561898410592302360071400008833500200711119286514105924443600232000090025002007111160699911059244436000000000887245022161111534603405992444360054000006724390250201116681189053674443600442086059344102402011162592180503144436007420000487543023020111624649604950444360070900005951370260201116372644066824443600686056186834102402011161373880724444436007090000891630000020111627141104522444360082821726547390250201116184718))
 (.node 1 (.leaf 4234444360043100006891430230201115986695045444443600567000079344502202011162216770614244436006820000533939025020111616490406135444360060105617438475210201115954408040954443600842000083254102402011161641580335944436006820000736941024020111620724304818444360068200007567410240201115952039048184443600682000075674102402011165123570432544436006820000720141024020111975758705265444360068900008123410240201116148163055764443600779000084583902502011159910250512544436008190000497445022020111609079603018444360017006624997410241401116066682030184443600183000034304302310011158894480355444436005670000443439025020111925716603554444360077700008341330280901116106129)
 (.leaf 3554444360048600008952430231001115687079035544443600517000085283502702011203359540355444436005170000853935027020111626051203554444360044200005820330280201116042313035544443600055000059344102402011160414430355444436000320000623641024020112023412400000444360013400005825390250201116321882069304443600069000069014102402011158765930693044436000270000664145022020111619412505697444360005500006669475210201119426723056974443600273000065963702602011197902120879344436004500000671143023100111962295602770444360006900006997450220201119722459076084443600517000089444752102011162185191059244436006230000659637026020111945149906610444360057600007000350270201115621556)))))
 (.node 8 (.node 4 (.node 2 (.node 1 (.leaf 7586444360046700006631250320201115488823070764443600467000067032503202011194226460421544436009530000874437026020111580455108920444360017000008801450220201116178235069594443600467000078735002002011161471700681444436004670000735845022020111582448706814444360046700007742450220201115708616078274443600467147677954502202011157375971059229736004671994885345022080111600002509604444360041300008079500200801116053631047204443600467000073453102908011160949950472044436004670000728931029080111620649010592000360046700007006310290201115350952105920003600467000076473102908011158339411059200036004670000705931029080111927771010592000360046700005776310290801119146424)
 (.leaf 10592000360046700005861310290801119021831105920003600467000059373102908011156358571059210836004670000639237026080111582514509604444360042300007190475210901119415026105921083600400000068545002009011159088301059210836003840000616745022090111956353310592000360030700003811450221011116024843099294443600192000050544302314111157801450834844436000270000564845022071111578538108406444360070900005811475210711115870044093404443600669000054084502210111158519671059200036005760000475433028101111582344410592000360057600008282330281011115742189105924443600621000084414102410111190709391059200036006430000869843023061111551313710592000360079900007369410240711116064854))
 (.node 1 (.leaf 10592444360077900008710450220711119516319105923023600709000088364502207111157306021059230236007990000879950020071111587340410592444360023200009009525190711116087395105924443600003000090285002016111159656911059244436005440000795155018141111651230510592444360051500007446550181411116315685071404443600689076075474102402011158872460578544436005670000535841024020111968089406538444360057600004623390250201116244410055064443600627103274544102402011165405600306144436009750000855937026020111602645104544444360059200007303450220201116147483045444443600623000066004102402011160944810493344436008280243789745022020111625020908106444360016400008700600160201115570197)
 (.leaf 5746444360084602438728410240201117845067036794443600856000080494102402011162404930367944436006820000712541024020111983568004255444360057600006144450220201115704881033594443600682000073694102402011207547430510444436008190000819241024020111609027210592444360071401308605390251401116568421059864443600613000078543502702011148329620973244436008730000663955018160111332556805343444360046700005118290300201116421032030184443600157000034304302302011160333540355444436005400000353441024020111564833003554444360047700008640370260901116001807035544443600467000086253702610011157408110355444436004670000862537026020111589978303554444360047700006158370260201116091206)))
 (.node 2 (.node 1 (.leaf 3554444360046700006266330280201119291797056974443600215000060623702602011158852390693044436000320000660041024020111990690105697444360044200006798330280201119447230056974443600322000064463502702011194323580743744436006130000594035027020111594393010592444360062700006579410240201116003254071264443600613000069903702602011192769240653544436006390000742143023020111929778205638444360046700006503250320201119193345070764443600467000063212503202011193440750380444436008360000889643023020111564803208471444360000002426058450220201114571918097524443600281000085515501802011157296901059241036004670000788945022020111579557008925444360046700007630450220201119581385)
 (.leaf 8925444360046700007769450220201115829255089254443600467000078444502202011157988701059229736004670242829845022020111587353310592124360002100008909600160201115476731047204443600467000074933102908011159314360472044436004670000749331029020111578016904720444360046700007345310290201115498913105920003600467000069933102902011155774901059200036004670000573733028080111588217910592108360051700005934410240801116100309096044443600384000067963902508011191884140960444436001860000616745022090111581182310592000360035700006298450220911115831289105920003600576000047444502210111193564980992944436000130000395245022141111588144209929444360000000008098450220711115654756))
 (.node 1 (.leaf 8348444360004800005788450220711115748326093404443600799000048474752107111192271731059244436004420000494641024101111957434910592444360055800007173370261011115652510105920003600293000080902903007111158814111059244436007990000871045022071111951804710592444360079000008712430230711115888926105923023600742000088184502204111160297891059230236007040000888545022071111603421210592444360006900008993600160711119966216105924443600024000089945751707111160156670570944436006210456829243023020111599813903971444360084800004490430230201115890547050814443600617000047174102402011159991351059244436007140000887641024120111469527100096444360102100008745410240201115932910)
 (.leaf 4544444360064300006049430230201116065593039264443600623000069763902502011161945010366044436008530000854843023020111603698907886444360025700008846575170201118297489029054443600966000087294302302011171478410502044436008650000863641024020111611308202442444360068200007036390250201116131050035344443600585000073034502202011162283320430844436006820000489439025020111469599105863444360068200007137390250201114926278060444443600217000060584502202011150234580604444436002170000605845022020111502345805636444360033422205507370260201116707585030184443600273000047804102402011194955950301844436002930000414841024020111591696703554444360071400007247370260201116222629))))
 (.node 4 (.node 2 (.node 1 (.leaf 3554444360061700008471370260901116165052035544443600467000086133702609011159468380355444436004670000865337026020111601600903554444360054000008421350270201116157911035544443600486000070553502702011158453000355444436007190000720735027020111601857603554444360027300006497370260201115926841056974443600018000069774302302011157209050743744436005920000654435027020111603131906535444360061300007520475210201115688676065354443600467000062232503202011191896630494644436004670000719035027020111578659207602444360000000004516450220201115256487079274443600000000054404502202011149171250662544436004670000705745022020111614084006814444360046700007417450220201115841380)
 (.leaf 8440444360046700008180450220201115941593068154443600467012881004302302011161452800681544436004670000785939025020111946531404720444360002100008953600160201115323794047204443600116000090426001602011156528330472044436005400000903157517020111937474004720444360046705597464330280201115922667047204443600467000076753502702011155770420472044436004770000868341024020111547432304720444360047700008711410240201118740522047204443600477000086834102402011152668201059200036004670000683231029020111570200810592000360054005596542450221401115984026096044443600273000072024302314011159891800960444436005580000517345022101111590084010592000360015700004744450221011115728302))
 (.node 1 (.leaf 9929444360000300004109450220711115949073083484443600413000080984502207111158617520934044436007820000510247521071111591955409340444360027300005029410240711115850000105924443600605000059524752107111159657761059244436003220000838345022101111933001110592444360023200008528450220711115696500105924443600100000089105751707111192235021059244436000720000846860016071111574942610592444360019800008303625150711115819199105924443600793000088994502210111157735131059230236006890000858539025101111934989310592302360077100008763450221011115749588105923023600793000088364502210111199771591059244436000270000901657517101111594734610592444360000100009001475211011116444227)
 (.leaf 5506444360083200007125410240201116177618077834443600782000069544752102011159497681059244436006691107774245022140111575609403668444360095716088425330280201116300698070814443600686253869964102402011159593220565644436006820000711641024020111332556800000444360112200008853450220201116090546044314443600766000081924102402011161751590244244436006820000754239025020111662272302442444360064300007125410240201116070072053184443600613000072994302302011165004240574744436004710000735339025020111524453506981444360046800008355390250201115588641051254443600366000043354102402011158627900301844436001360000478041024020111584314600697444360059200004894390250201115946422)))
 (.node 2 (.node 1 (.leaf 3554444360060500008187370260201120264655035544443600682000071223502702011158868660000044436006210000720735027020111914320400000444360062300007309370260201116054493035544443600322000063923702602011159150990569744436000220000640443023020111579734108793444360001600006977430230201115744049087934443600517000074694302309011194863550277044436004000000744443023100111617127102770444360040000007660450220201115830813074374443600605000068624302302011157096750653544436005170000706041024020111580316206535444360035700007207500200201115758211065354443600605000071373902502011191161500653544436004670000655725032020111547694110592444360046700006223250320201119611860)
 (.leaf 10592444360046700006646270310201115544947058244443600467000069903702602011193268210563544436004860000776847521020111625440507997444360046700007574450220201116093570069354443600467000071164502202011196318780693544436004670453741745022020111975152910592000360046704537523450220201115675788105920003600467000077424502202011191266360844044436004670000801943023020111648823806815444360046700008017410240201115857886047204443600033000090156001602011152613850472044436008190000896745022020111564171904720444360060100069006450220201115905449047204443600486000690124502202011158416740472044436004860000901745022020111512694304720444360048600009012450220201115174278))
 (.node 1 (.leaf 4720444360048600009006450220201115864407047204443600467000069453102902011157897951059200036004670000710631029020111905113610592000360046700007092310290201118834215105920003600467000070233102902011189042330472044436004671475696431029020111941632610592000360046700006921310290201115898255105920003600467000065023102908011159346301059200036005400000664039025140111633096809604444360002700007520475210801115926057105920003600467103166885002008011158769260960444436004670000616745022091111567773008348444360032200004577450220711115835574083484443600186000081744502216111193439850834844436005670000535647521071111909549410592444360001800005208370260711119565107)
 (.leaf 10592444360024700008801450220711115792536105924443600349000081873702607111157181671059244436005400000801555018101111953011210592444360079000008635430230711119177627105924443600656000084373502710111158074321059244436006130000578037026101111569090310592302360076600008831410241011116100704105924443600000000090124502214111159250200547044436006860000838841024020111783070905658444360068800008388410240201117830709071474443600714000087804102402011160178960508144436005760240563939025020111601780905717444360066900006167450221401115757595066744443600870000684022903002011189518220694044436006390000714843023020111582042803053444360089000007472475210201116083020))))))
 (.node 16 (.node 8 (.node 4 (.node 2 (.node 1 (.leaf 444360115900009017450220201117113642000004443601065045389314502202011167030220004944436009960000863543023020111656469504943444360085600008607410240201115862323039464443600656000075674102402011158202060531844436005490000793445022020111596417404472444360073000005958300000211113325568044714443600730000059583000002111133255680541544436008820000889041024020111631849006025444360062100008046310290201116829688059804443600116000051193902502011161768290410744436000240000410945022090111958748605125444360054900003534410240201119399888006974443600576000048943902502011163004730355444436004670000855937026020111626088401403444360048600007896370260201119473581)
 (.leaf 444360048600007074350270201116056010000004443600357000072193702602011159756110000044436004670000714233028020111595802803554444360021500006596370260201116045290096044443600016000066214302302011158227880879344436004670000641131029020111933047009604444360046700006916330280201119876010096044443600467000070373502702011162432260879344436004770000662935027020111963256602770444360044200007395500200201115446447074374443600467000069293302802011191155620743744436004310000706041024020111589427210592051360055800007169370260201115740862105923223600505000072193702602011156253021059233236004670000690631029020111575288806535444360046700006724290300201115872433))
 (.node 1 (.leaf 10592332360046700006850290300201115747614105924443600467000066992903002011157009871059232336004670000680831029020111562880305855444360046700006916330280201115684303038114443600980000085823302802011144037401059207936004670000760443023020111566690710592079360054000007845475210201115881715068154443600567000079974302302011158041570472044436002930000902160016020111532315300000484360076600009037550180201115728797047204443600891000090124502202011158526150472044436004860000901745022020111574589304720444360048600009006450220201115226614047204443600467000077083302802011155895980472044436004670000699331029020111570746104720444360046700006945310290201115691176)
 (.leaf 4720444360046700006930310290201115864316047204443600467012670593102902011154173400472044436004670000705931029020111929278004720444360046700006992330280201116288823105920003600540000067593702602011162755540472044436005400000633335027080111983605810592000360071900006954475211401115846090096044443600719000068344752109011197986141059200036003570000525145022101111582483008348444360017000004984450221611119259593093404443600627000039664102407111194252400934044436002930000586445022071111944435410592444360042300005054430230711119432570105924443600634000053194302307111194772311059244436002320000796033028071111953808910592444360040000008573450221011115733748)))
 (.node 2 (.node 1 (.leaf 10592444360066900008698430231011119234598105924443600742000089394302310111160954711036344436000550000861862515101111553075505662444360068800008388410240201117830709057654443600592000082194302302011157897000571744436005760000593441024020111955526404991444360065624715793370260201116023414000004443601159000090124502202011158696500002744436010740000898645022020111592079410564444360066913357930410241401116069020030534443600682110685114302302011159353230394644436006210000729943023020111623528705861444360062300007786410240201116583503065114443600247000069275251902011145516160474844436006890000623641024020111587692105940444360030700005586350270201115786027)
 (.leaf 4388444360073000005958300000211113325568044674443600730000059583000002111133255680410744436003070000319241024020111590402403018444360001600006625450220201119416701006974443600198000059344102402011159645790069744436004670000799837026020111596687901403444360046700008568410240201119495412035544443600486000087613902502011195655640355444436004860000796739025020111566009504575444360042300007133370260201115487099045754443600033000078714502202011160691810457544436000550000768647521020111575544900420444360058500007660450220201115700741035544443600341000068523502702011157647350578344436001860000689237026020111931616005783444360034900006596370260201115536253))
 (.node 1 (.leaf 9604444360013400006547390250201119523648096044443600226000081873702602011160809770960444436004770000742041024020111593469009604444360046700006951350270201119755581087934443600442000067353302802011159634260277044436003660000757050020020111580211707437444360029300007171410240201115712168087934443600025000070604102402011156754230879344436002930000712235027020111570266410592051360054000007190350270201115814031105923323600467000066733102902011158535671059232336004670000680831029020111924906810592323360046700006945310290201115747493105923233600477000072193702602011193205540430044436008670000898143023020111613299907450444360002100005958450220201115711996)
 (.leaf 10592000360046702387795450220201115631922105920003600467000073644102402011154023631059207936004670000738541024020111937362110592079360051700007795475210201119483061084404443600467000082934302302011163745830000048436009340000901450020020111942419704720444360048600008993450220201118953163047204443600467000068893102902011160851050472044436004670000685131029020111577559110592000360034100007358450220801115727998105920003600366000073325002014011156340761059200036006980000678943023101111557220208348444360059200005251450220711115938178105924443600341000086354302307111158947911059244436002470000818931029101111580460910592444360061700005895390251011115737572))))
 (.node 4 (.node 2 (.node 1 (.leaf 10119444360006000008468600161011115750564069524443600801000085424102402011162201580529644436006130000657941024020111572599004791444360068600005639390250201120185197049914443600623000083884102402011159296600206244436011201333900045022020111637544500000444360115900009000450220201115802025105924443600915066086463902514011156270810436944436009440451887143023020111518309204795444360068909438511430230201119082522041064443600911000080364502202011157271750143644436009640000883743023020111687614907277444360017000008628650140201116813642021334443600966000088544302302011170455220298344436006820000832541024020111626511902983444360068200008090390250201116129794)
 (.leaf 2983444360068200008355390250201119666317039464443600682000075423902502011159370240531844436006820000711339025020111597336405318444360065600008620410240201119248449058614443600601000072104302302011162617240617844436006050000796741024020111629707405165444360082400047523450220201116271134031114443600928000072925251902011157579890184144436009180000622150020020111569496506517444360050500006975390250201114823350097264443600599000072323102914111159056200401644436009040000441643023020111642384804107444360034108554076390250201115862139006974443600322000054404102402011162975710069744436004670000869937026020111595149200697444360046700008685370260201115982930))
 (.node 1 (.leaf 697444360046700008602370260201116066907045754443600467000079714752102011157405030000044436003410000660735027020111609114100000444360015700006724390250201119646313096044443600055000063654102402011195639000960444436001860000675937026020111590351709604444360013400007187390250201116012403096044443600467000065023102902011162585830960444436002470000644635027020111923051202770444360018600006997450220201116149348075414443600014000072354502202011159786380879344436001570000715337026020111591793210592000360047700007263350270201119030904105923223600467000069823102902011158085961059232336004670000688931029020111576712705855444360047700007359390250201119927033)
 (.leaf 6778444360051700007174450220201116137305105920003600467000076604502202011157826850716344436004670000768745022020111575194610592000360046700007659430230201115696986105920003600467000074434102402011155994921059207936004770000776945022020111540088804720444360060500008385475210201119270301047204443600634000083964752102011159018870472044436005400000843047521020111526991504720444360048600009017450220201115264948047204443600621000090375501802011154337000472044436004860000834343023020111533776610592000360046700006977430231401115497992105920003600803110568844502214111156323060834844436008370000605845022100111931985208348444360042314084531475211001115951735)))
 (.node 2 (.node 1 (.leaf 8348444360060500004572430231011116078346105924443600585000061674502210111194615651059244436002730000601045022071111580507410592444360047700008831410241011115984122100294443600400000088344752110111149519821059244436000600000898560016101111575056406481444360068900008668410240201115543739054684443600686000082624102402011159083680499144436006130000722841024020111988494302062444360083900008939430231401116138458020624443601048094290134752102011169036770044444436011410000900747521020111647135800000444360115900009017450220201116191272009654443601010034588825002002011153258490824744436005764043900352519020111563041707359444360068900009049700120201114468910)
 (.leaf 5517444360048600008195550180201116301346053514443600698012468354102402011162804490195744436010320003740143023020111646098001957444360070400008123410240201116323295052134443600845000081524302302011161775780521344436006640000696641024020111982126005213444360068200006393390250201119731591055334443600682000071133902502011160288510553344436006820000743239025020111597215105533444360062300007997430230201116306060055334443600627000073864302302011160695570586144436006820000812341024020111616563406858444360050500008528450220201120244750061784443600592000085484302302011162497840582744436006050000812341024020111573568304976444360061300007480430230201115759710))
 (.node 1 (.leaf 5407444360054000005386290300201115456696017434443600915023760985002002011157166310068544436009450000628955018020111463130803025444360087700006167450220201115700642023854443600930000068134502202011158557630673344436001920000808252519020111604937506917444360010400007724550180201116294442081184443600563000078444502202011147264330651744436005050000697539025020111482335005328444360058800005859350270201115173443092614443600828000072323102914011152579810766544436008720000820635027020111628346503493444360090400006737450220201116674774040164443600897000038493702610011158000650000044436000200000614445022020111609012300697444360050500008646390250201116135616)
 (.leaf 697444360046700007635410240201116009449006974443600477000076354502202011161020500069744436004860000894447521020111975314100697444360048600008316475210201116581448014034443600467000078914752102011160110600042044436004770000760939025020111545388402445444360001400006711430230201115808283024454443600022000070904302302011159038290244544436002730000695135027020111580073309604444360047700008697410240201116468976096044443600477000073173902502011163435350960444436004670000688931029020111605530807541444360046700006746310290201119818297087934443600341000071103302802011157925330879344436004230000711033028020111905211410592000360047700007106350270201115374105)))))
 (.node 8 (.node 4 (.node 2 (.node 1 (.leaf 10592322360046700006964310290201116006587105923323600467000069213102902011191027420628144436004770000718437026020111922093004475444360061300009023475210201116091311059294443600714000087814502202011154265920677844436005400000815850020020111605763707087444360059200006884450220201116100036105920003600477000074004102402011158460661059200036004670000756941024020111547956804720444360068900008351475210201115488860047204443600698000090385751702011160781940472044436008030000901245022020111572136604720444360083500009017450220201119088370047204443600627000090174502202011148050870472044436004860000902347521020111490730004720444360048600009051675130201118613054)
 (.leaf 4720444360054900009023475210201115698949047204443600467000075183102902011162802600960444436008480000711645022140111526001509604444360051700005857430230211115458357096044443600477000058574302314011191978491059200036004770000744443023140111908682410592000360065600007526430231401115442485105920003600656160371904752114011157233800330944436008241672695447521080111591381108348444360013600005958450221001115931401105924443600549000059003302810111191943861059244436002730000601045022071111936346310592444360038400008783430230711115763954105924443600164000090366001614111200847461050044436000600000864960016101111623858707431444360068200008780410240201116425323))
 (.node 1 (.leaf 10503444360068600008607410241401116522144045234443600825000077864102402011157609550479144436007900854511443023020111989228102062444360062300006948410240201119698456004444443600898000088834302302011159543640000044436011470000901245022020111602945107864444360048600008928525190201114953848068734443600689065890377001202011165196060710744436006890854904470012020111631576807907444360060105558958475210201115980636055174443600528000087245501802011161056630395444436006230000780741024020111597001505213444360057600007321430230201119909332052134443600634000078593902502011163023840521344436006820000688539025020111601268005533444360068200008388410240201119878443)
 (.leaf 7374444360052800008800475210201116103125052824443600682000079383902502011158229690494244436006210000627143023020111605186104450444360063400005440410240201115863999049964443600627000060494302302011160528550695844436006170000594943023020111604813006325444360060100005949430230201116467392043764443600623000051144302302011156352780440744436006390000523341024020111608491604581444360062100004884350270201115558303045584443600689000060324102402011157391360098044436009460000616745022020111505439705186444360059200007590430230201116393873059064443600283000062984502202011161642820521244436002920000447539025020111560953405419444360060200006032350270201115359215)))
 (.node 2 (.node 1 (.leaf 10295444360055800007670270311401116493222040164443600941000030374102410011157059950000044436002930000343043023021111617529700000444360054000008378330280201116487848006974443600486000089874752102011161093160069744436004770000888343023020111618764600697444360047700008234500200201120565597024454443600207000079294752102011157753680244544436004860000774147521020111585755402445444360047700007265390250201116018386096044443600486000090234752102011206908430960444436005050000902347521020111605491409604444360046700007059310290201119127874072874443600467000069303102902011157509030754144436004670000692131029020111944846308793444360046700006993310290201119330702)
 (.leaf 10592322360046700006945310290201115880135105923323600467000068723102902011157345880628144436005170000900147521020111642356106281444360051700009028500200201116648921047304443600955000087443702602011157023120573144436004820000681345022021111494938606804444360019800006813450220211114949386105920003600477000073854102402011161124121059200036004670000746541024020111896699010592000360046700007465410240201118986428105924443600467000075694102402011153974320472044436006430000901745022020111515156104720444360048600009051675130201114924699047204443600486000090516751302011185579910472044436004860000901745022020111530471804720444360054000009017450220201115048727))
 (.node 1 (.leaf 4720444360046700007249310290201120082170047204443600467000072313102902011160181920472044436005050000700633028020111944785804720444360077706575769350270201116110289033094443600442034376044302314011194161860330944436004132328746943023140111553214803309444360034100007202430231401115267594033094443600928055468844502214011160133140850744436000720000616745022100111642934610592444360063900005477370261011119277497105924443600549023561424302310011158059241059244436006170343629845022140111586540810369444360044200005408450221011119393239103694443600232000056484502210111193858681059244436002320000880145022071111572656210417444360006000008604600161211115738525)
 (.leaf 348444360103000008585390250201116093319004534443600938000064453902502011162059580441944436007990000554543023020111618432500000444360113100009017450220201115719560077214443600714012288644102402011186050320521344436001700000894155018020111584647205213444360063400007967410240201116380935052134443600682000076463902502011163282970521344436006820000703639025020111602846705221444360068200007271390250201116196120052214443600682000074323902502011164930600687844436005850000880145022020111603933707281444360071400008831410240201116134892048204443600682000072713902502011153697750466644436006430000696641024020111626204004902444360065600006365410240201116287703))))
 (.node 4 (.node 2 (.node 1 (.leaf 5002444360068200006445390250201116479750099004443600689000082624102414011159760500842144436006820000573239025140111612146504275444360068200005119390250201115184039044564443600617000051144302302011157944320504544436006820000654739025020111546741601084444360094600006298450220201114768469065664443600192000079055251902011159406860911644436000110000750037026020111683998110013444360000000007661350270201115210951093064443600532000073523502702011145099280981444436003970000746237026020111388498308974444360094800005545430231611115115553091944443600933000045594102416111146498031011544436009110000632239025161111428371110118444360071900007826310291411115797591)
 (.leaf 584360051700008025270311401119551223075644443600940110483834502202011160584970000058436008353225366741024100111919626500000444360001000005251450220201116438860006974443600486000089154752102011157143450069744436004860000885247521020111916022400697444360000000007660450220201116019094024454443600006000076024502202011157286170960444436004860000794745022020111587683608439444360046700007096330280201115585017072874443600467000069643102902011159934260879344436004770000702433028020111988011710592051360046700006502310290201115606157105923223600467000070793302802011157633741059233236004770000696233028020111570009506281444360051700008898475210201116503566))
 (.node 1 (.leaf 10592444360098000008582330281401115981025105924443600980000085823302814011157628711059244436009800000858233028140111530844308840444360045000008814410240201115376707070874443600215000089936001602011159110161059200036004670000740041024020111618251310592048360054000007147430230201115790034105924443600467000075754302302011188898470472044436009160000900860016020111894466904720444360048600009049650140201118675824047204443600486000090516751302011186284600472044436005170000902952519020111899475804720444360048600009017450220201115808434047204443600486000090174502202011190707750140344436004670000893943023020111612766501403444360046700006964310290201115963020)
 (.leaf 4720444360046700006982310290201115936766047204443600862000062763702602011160798920960444436009150000533939025020111603532709604444360047700006221500201401115644594033094443600505000074954502214011153315140330944436007090000757543023140111577108603309444360077900006542450221401115863394085074443600714000052514502214111203234470817544436002470940664145022141111587996310369444360077101224904450221001119557229103694443600621000044084502208011193928361036944436006130000629845022090111589963910592444360024700009012450221011116048009105924443600558000089524302314111157371830683644436006560000868341024020111566451500453444360095601225685475210201116299628)))
 (.node 2 (.node 1 (.leaf 4352444360083500005755430230201116161059044194443600627000086204102402011159961380435244436006560000891243023020111599611606405444360062700008961650140201114530312065444443600643000089986751302011147059290521344436005670000729745022020111613322105213444360047700008763450220201116020299052134443600682000074323902502011163118250522144436006860000819241024020111683903005221444360062300008620410240201116303408047404443600682000059143902502011158313370664544436004230000790137026020111413068906228444360047700006685370260201114637443065654443600232000080625002002011157125180659644436004500000682937026020111590759905354444360047700005711370260201115859800)
 (.leaf 5396444360045000005711370260201116125349048394443600617000057323902502011159045410450844436005400000407639025020111558572109522444360094200004797410241611115358296102594443600911000065473902516111151615870649144436009190000591439025081111560439207755444360068200005345310290811115678573103954443600835055574762903012111157200300756444436008770000846135027140111608721100000584360095101233534410241001115818151000004443600307000040424302310011160498930000044436004860000882539025020111620388000000444360048600009023475210201119647874000004443600486000089164502202011193299990069744436004860000895847521020111588431610592225360000600007548475210201116038234))
 (.node 1 (.leaf 444360017000008613370260201119186047000004653600477000088314102402011160294000244544436004860000779547521020111611837009604444360051700009028500200201119840998096044443600656000089814302302011206215800569744436004670000714233028020111572018510592051360046700006865330280201115707127105920003600477000069113502702011193900430628144436004860000707435027020111595912106281444360051700008977475210201116152031033724443600803000090174502202011164203000509844436005400000902850020020111612360910308444360095300008744370260901115594701049324443600928000088403902502011170174540806344436006210000893943023020111618176310592000360059200007523450220201116445318)
 (.leaf 10592048360038400008941550181401115785470038244443600558000090136501402011189788140382444436007660000896460016020111948096504720444360087100008897500200201116002417047204443600486000089444502202011158697820472044436006130000897645022020111599972204720444360054000009017450220201115410871047204443600486000089874752102011152815680140344436004670000864037026020111604404401403444360046700006798330280201119983511096044443600232000078854102414011158723320330944436008490000544045022140111598358303309444360086202366884450221401115849575105921913600844000069244302314011159205301059219136007660000547745022021111927000010369444360077100004904450220801115890168))))))))))
 (.node 256 (.node 128 (.node 64 (.node 32 (.node 16 (.node 8 (.node 4 (.node 2 (.node 1 (.leaf 10369444360028300005724450221411119668074103694443600283000087814502210111156899511059244436002830000901245022101111576794205344444360068700007252475210201115892686020924443600929360065424502202011155663610435244436008070000872841024020111608245501437444360105600008885450220201116097228025774443601019000088403902502011162518750649944436006560000899867513020111732342007099444360058000008998675130201115942860036904443600891000077375501802011161636290616244436006340000730541024020111583724005213444360056700006789430230201116166180052134443600549000057323902502011203477750697344436005920000675841024020111623066505018444360062700007285410240201119658667)
 (.leaf 5359444360066400006483410240201119850874055334443600400000090085002002011200210640553344436007990000889847521020111631438005533444360044200008818450220201116040569046634443600627000059494302302111150566520516944436006340000678943023020111472170304846444360056700005958450220201116343320051794443600576000060123902502111161231800535644436004670000603241024020111611095405545444360060100006392370260201114818430054984443600400000056153702602011152652101028044436000320000897557517020111477070704865444360062700005711370260201115892851065394443600567000083553902502011161985160432444436008320000679041024020111605511202881444360061700004434390250201116311182))
 (.node 1 (.leaf 4312444360063400004922390250201115738646081144443600467023672403702602011158434390871944436001440000808435027020111461803206615444360040000007809370260201115420178080684443600144000076613502702011150462020566644436004920000660339025020111569443805988444360048000007646390250201115699000098154443600397000074623702602011138849830605544436009820000556445022081111519052508244444360082401247413330280911115890858075644443600807023777073302814111160915260756444436008030000585743023020111601500500000444360010000008262410240201119892996000004443600477000084073302802011158376060000044436006010000874437026020111587672500000444360058500008840390250201119446524)
 (.leaf 697444360048600008655350270201119410373006974443600486000087443702602011159120121059222536004130000892041024020111613510700000465360048600008993450220201119964719024454443600486000089944752102011162833950000044436004860000902347521020111654091002445444360048600009023475210201120679518096044443600486000090234752102011161689170960444436006430000901745022020111627682709604444360051700007948475210201116043700084394443600486000074413702602011157501880843944436004860000733435027020111595246507541444360048600007805350270201115957609056974443600601000075143502702011159518920628144436005170000799743023020111600041906281444360048600007632370260201115979670)))
 (.node 2 (.node 1 (.leaf 6281444360088800008981430230201116832482071484443600682000090234752102011161404620714844436005400000902850020020111607241407148444360054000009028500200901116235609092444443600517000090184752114011159136780813844436004860000901847521140111584671408501444360062300009006450221401116457904105924443600980000085823302812011155909110778944436004000000899555018020111574741107947444360020700008909600160201115975360105920003600592000072974502202011200119511059200036005280000741745022020111606959002445444360022100009019650141401115893737024454443600865000089945751702011160176960472044436005490000902467513020111939282704720444360052800009043625150201119607627)
 (.leaf 4720444360048600009007475210201116084553047204443600486000090255251902011153959090472044436004860000904267513020111574722904720444360054000009025525190201115268982047204443600477000090205251902011192635160472044436004860000901245022020111596348901403444360070900005233410240201116097860096044443600431000045164502214011160461520330944436007990000465143023140111585825903309444360046700006675410240901115917375083834443600793000054774502210111158496380952844436007663449678943023100111581974710369444360032200007174450221011119271681103694443600170000081744502209111192651261036944436002830000861445022101111576358610592444360028300009017450221011119705714))
 (.node 1 (.leaf 10592444360028300009006450221411116205992052354443600686000084414102402011164463580607844436006890000862041024020111613043604734444360077106595469290300201115514688015024443600885000042174302302011155058780459844436006820000863641024020111631037101437444360086500008896430230201116130006047684443600898000085973902502011171456170301344436008560000759455018020111614537806162444360052800006884450220201116005008061814443600540000072524752102011195001350805444436005400000754847521020111940384706973444360035700009016550180201116205330052214443600601000083254102402011160140230662844436005850000832541024020111663540508425444360056700008967450220201115755610)
 (.leaf 10592444360071400008920410241401115577648045744443600682404252334102402011164185700456544436005760000522145022020111951480504280444360063400004463390250201115566667043194443600576000042174302302011158260180485544436005920000594943023020111615018104825444360066400007187390250201116122657067274443600400000077633502702011157230260474544436006270000605137026020111617629806587444360068200008514370260201116911788063804443600698000085853902502011158641600481144436009320000889643023020111638591403481444360095500008668410240201116849169007424443600771000083884102402011167448900327344436007900000636143023020111623293204806444360054000006203410240201115717917))))
 (.node 4 (.node 2 (.node 1 (.leaf 4417444360061300005525390250201115883272084034443600682000087113702602011142901270933844436001440000840435027020111599870709548444360014400008437350270201115967302042374443600779000060584502202011150234580981844436003970000746237026020111388498309818444360039700007462370260201113884983098434443600409000073523502702011144443990984344436004090000735235027020111444439904899444360077900007339330280211115985410075644443600793000080463102909011163156270000056236009010346381145022101111575903100000562360025700004323430230201116082353000005623600467000084473502702011192094550000044436004770000860435027020111612634000000444360048600008655350270201116143115)
 (.leaf 444360048600009017450220201119433272006974443600486000087443702602011161263220069744436004860000874437026020111644619310592225360048600008920410240201115980618096044443600486000090234752102011162311310960444436004860000726335027020111592153605697444360048600007311350270201118921475056974443600601000088314102402011157067330714844436006690000901745022020111566950405716444360062700009028500200201115735421042254443600858000089814302302011157677891059200036005670000752345022020111638831710592000360051700007523450220201115686905105920003600467000075744502202011160913011059204836001440000900665014140111550985604720444360048600009012675130201119920049))
 (.node 1 (.leaf 4720444360048600009024675130201115972940047204443600486000090506751302011196812600472044436004860000904867513020111523703104720444360048600009050675130201115149569047204443600486000090426751302011151174300472044436004860000901267513020111539772604720444360046700008379310290201115921132014034443600467000067133502702011161839060140344436004670000633335027020111967233101403444360087900004997410240201119884713105920733600450055666694752102011157674020642044436005670000368739025140111578349503309444360019800007742450221401116092035033094443600176000072813502714111154650371059219136007040000686243023141111586534708383444360071400006542450221011119802716)
 (.leaf 9528444360041300005357410241011119604865095284443600656023851454302310111158871591059244436002830000900147521141111900203010592444360033400009038575171411115310504052504443600682000080163902502011164891220619344436006860000868341024020111697998003627444360085602386298450220201116076502045984443600936000047444502202011162447640459844436006820000611541024020111622084704598444360077900008763410240201116178069056324443600951045188904102402011160764230191344436011000000898143023020111621292506366444360063900007839600160201114859719038984443600932000078136001602011157437760997744436005490000745357517140111509241904834444360025700007263575170201119497384)))
 (.node 2 (.node 1 (.leaf 6777444360051700007739525190201119529403067774443600517000076294752102011158071990522144436005050000886950020020111605754606628444360054900008192410240201116288938080714443600768000089204102402011160114570519144436007090000700041024020111611345504293444360063900005841410240201115837476047854443600682000053393902502011165138250460444436006340000574441024020111640171905578444360062300006871390250201115991073059664443600682000083173702602011155046920594344436006890000790841024020111596441204888444360068200007353390250201115997951072714443600505000088164752102011156762200513644436006390000768141024020111490737504741444360068200006465390250201113717735)
 (.leaf 4377444360085800008123410240201116132278041124443600853000076814102402011161562970678144436006820000853437026020111489039405473444360084500008683410240201116496451052904443600771000082233902502011159472020402644436006430000819241024020111654218305289444360062700007753390250201115348023052884443600779000071714102402011146291540469044436008350000703043023020111542185303485444360084200005865450220201115228295048284443600828000071474302302011154565360392544436009200000879941024020111636505005164444360067200007500370260201115874498051114443600520000060584502202011156722340566844436004920000660339025020111569443809844444360040900007352350270201114444399))
 (.node 1 (.leaf 5338444360059800006202330280211116001532096894443600790000053833302808111159604560756444436008750000336541024100111572810200000475360003200004651430230201115891097000005623600307000082233902502011162620420000044436005400000872737026020111956361900000444360048600008655350270201116063153000004443600643000090174502202011196992230000044436005400000898143023020111647521100000444360048600008744370260201116015541105922253600486000087273702602011197138681059222536004860000880939025020112011342110592225360048600009007475210201119400588105922253600486000090184752102011196714690000044436006130000901745022020111651170500000444360055800009023475210201116130502)
 (.leaf 444360048600009023475210201119718179096044443600540000090234752102011200966640960444436005170000902347521020112015353109604444360048600009023475210201116251495096044443600486000086533702602011153155830628144436005580000897747521020111611861907148444360055800009023475210201119259739071484443600623000087443702602011161177590714844436006430000865535027020111638239709794444360048600009013475211401115910480097944443600486000090014752102011154149150824244436005050000902552519140111578775404437444360094105578778390250201115844160083694443600549000090155251902011151843880789744436003660000787252519020111915059107060444360052800008198475210201116013811)))))
 (.node 8 (.node 4 (.node 2 (.node 1 (.leaf 10592444360046700007297450220201116304492068154443600467000076874502202011159700251059204836004670000768745022020111604333502445444360014400008936650141401119055798024454443600605000089076251514011155486000472044436002470000895162515080111568886804720444360024700008906650141401115756876047204443600450000090165751702011192442550472044436004860000901365014020111587910304720444360048600009029675130201115714476047204443600477000090516751302011158554660472044436004860000905167513020111592313604720444360048600009051675130201115138240047204443600486000090506751302011149275930472044436004860000897067513020111527880104720444360047700008742390250201115780411)
 (.leaf 1403444360046700006785350270201116426780014034443600853000065473902502011160473330642044436008850000433541024140111597623003309444360064300007297450220801115693858033094443600215000077184502208011157121231059222436006430000532639025101111550221508383444360059200004904450221011116185558095284443600400000052514502210111158754901059244436003220000899555018141111637058906022444360068600008568410240201114879057000004443601139000088854502202011156207900016744436009540000664145022020111597089804598444360093500005440450220201116059035056324443600664000088644102402011195260920049744436010140000778957517020111600134804617444360085600007808675130201115948419))
 (.node 1 (.leaf 3128444360074200007928625150201119656625043224443600742000075945501802011193246300522144436005400000851143023020111632486408104444360062100008912430230201115732982082354443600714000089204102402011158794240464244436006270000586545022020111611533604574444360056700005653410240201115786006048374443600623000054404102402011159780310524344436006820000710039025020111719560007045444360014400006006330280201113908628063684443600144000050593302802011133255680440144436008580000812341024020111627357404832444360085800008526410240201116302500000004443601131000090064502202011164479510518444436006640000775339025020111557522307628444360057600008534370260201115511990)
 (.leaf 444360097200008573450220201116754469066194443600605000080494102402011163189020575144436006860000829539025020111620099706525444360048900007978370260201115776771048454443600825000073854302302011157830200580744436006640000709937026020111491673006728444360068200007742450220201114618855056064443600803000074694302302011160029370602444436005720000654435027020111420465005447444360066600006544350270211113964900045004443600730000059583000002111133255681041244436006380000642733028121111587064010592444360091800008407330281411115713490102774443600704000068653302814011158863050000047536008581607325043023100111573505200000562360048600008566350270201119867303)))
 (.node 2 (.node 1 (.leaf 444360058500008840390250201119422487000004443600486000089814302302011158410870000044436004860000874437026020111561597800000444360048600008655350270201115857664000004443600613000090174502202011165374680960444436004860000902347521020111590389609604444360048600009023475210201119861665000004443600517000090234752102011158667050000044436005850000902347521020111592364905697444360051700008876410240201119034844056974443600517000088144102402011193468460628144436005580000893943023020111570255806281444360048600008761390250201115874871071484443600486000090184752102011195076910714844436004860000902347521020111593857710592174360048600008994475210201115701011)
 (.leaf 10592174360048600008915475210201115747988046374443600528034890205251902011193570660995144436006820127901450020090111539657708860444360089803488939430230901116337434105924443600682000089764502209111172810261059200036005170000780741024020111658114306815444360046700007523450220201119558363105920483600366000077155002002011157241620527344436001440000901365014140111581326201228444360046700008992625151401115611167047204443600349000089636251502011191480480472044436004860000905167513020111562509804720444360048600009045675130201115827797047204443600486000090506751302011151070670472044436004860000901267513020111497033604720444360048600008960675130201118713288))
 (.node 1 (.leaf 4720444360048600008949675130201114950883047204443600486000090126751302011151262880472044436004860000900567513020111502228104720444360048600009029675130201115385117047204443600477000087423902502011156601790642044436006820000411335027140111933997010592073360038400006997450220801115987889033094443600366000076604502214111193421730330944436004770000722841024090111592227103309444360079300004970430231011115586397083834443600825000060104502210111158210970878444436003490000736941024101111596341509528444360062300005573410241011115857947095284443600032000063223902510111193374491059244436001830000880145022101111564958406201444360068600008620410240201115506856)
 (.leaf 3738444360093900008684430230201115822817035524443600915000074964502202011159835030563244436008780000575543023020111589009605632444360093500008971430231401120136346009694443601123000090174502202011159278720000044436011590000896745022020111593994903339444360094600007813600160201116113853104814443600669000077375501814011150939810651844436006210661790665014020111572457905160444360078200007758650140201115904896074674443600601000090016001602011157627790522144436008780000885345022140111624456906591444360056700007997430230201116352352045184443600682000056393902502011154868140464244436006230000433541024020111606346505903444360087840195857430230201115882554))))
 (.node 4 (.node 2 (.node 1 (.leaf 5138444360066920456758410240201116351558048374443600601000058253902502011158987000531044436005400000727139025020111572841004327444360083700008020450220201117366256041884443600844000079344502202011156882540502944436007820000841643023020111597598806302444360068200008585390250201115953136052464443600605000072473702602011152483710447944436009440000896243023020111634957004026444360097100008668410240201116323892040264443600799000076814102402011198669410445844436006170000606839025020111517807504059444360087100007997430230201116695279047024443600908000081744502202011203355330128544436008850000846243023020112052572201285444360087700007816430230201116963716)
 (.leaf 1285444360088500008241450220201116436547053914443600888000083254102402011160935930585444436007990000809039025020111590889906240444360054905588056370260201115841255057354443600627000079013702602011155825390421644436008580000750037026020111587449804694444360083500007030430230201115938312070074443600704000078444502202011144890310499844436006170000603241024020111522801305447444360066600006544350270201113964900054484443600666000065443502702111139649000545044436006660000654435027020111396490007745444360040001283430430231011116031293000004753600576000043103902502011155267890000044436004860000901745022020111921375800000444360051700008744370260201119460287))
 (.node 1 (.leaf 444360048600008840390250201115906209000004443600486000086553502702011159596510000044436004860000865535027020111954338600000444360048600008744370260201119541912000004443600486000088253902502011194053080000044436006130000901745022020111640362200000444360051700009023475210201116016130056974443600799000089204102402011162489640628144436005170000889041024020111565276006281444360048600008555350270201116256991062814443600486000086403702602011192036630628144436005050000789637026020111549853910592174360048600008872450220201115323411082424443600486000088034302302011194728660824244436004860000902052519090111570486008298444360048600008995500200901119713111)
 (.leaf 10592080360020700079016575170901116051964099344443600186012872255251909111158025340705344436007140000895745022020111664483505519444360062300007174450220201116483567068154443600517000079084102402011160297510681544436004670000771747521020111583181009785444360017600008999650141401115858597012284443600215000089226501414011194138190472044436002830000890762515140111577161304720444360048600008960675130201115329511047204443600486000090186751302011151030510472044436004860241905067513020111521311201403444360046700007167330280201116445109014034443600942000057323902502111200916790642044436004860000585935027140111607209310592073360045000006901410240801119465793)))
 (.node 2 (.node 1 (.leaf 10592073360046700006621430230901115546434033094443600467000081873702614111192930770330944436006170000520141024091111573133908462444360070400005281410241411115903597084624443600623000054984752110111158302370846244436007790000514543023101111960117608761444360062700007369410241011115992677105920003600742012862714302310011157654600952844436006010000717445022101111572882807400444360068200008780410240201115918082035524443600934000056854752102011159349810563244436009190000681345022020111964587600031444360108700009023475210201115923835091394443600967000078116251514011159525050620844436006560000792467513020111600424105951444360083700007993575170201115068695)
 (.leaf 10592444360046700009013650141001115690610018314443601021000090255251902011152563550522144436005170000846243023140111605956306484444360058500008799500200201116064579045604443600639000055253902502011164839790590344436006230000582539025020112009241604501444360068230735744410240201115782932045264443600585000052214502202011142817640490944436005490000497445022020111926345305084444360062100007125410240201115797159029224443600848000061444502202011156104020364944436008390000662545022020111591971708918444360077100007084430231401115925999050534443600621000067904102402011158230140479644436007140000693341024020111588390504750444360068200006701410240201115579765))
 (.node 1 (.leaf 3612444360077100005400430230201115967441033364443600837000065104502202011158831960434244436008280000701143023020111600279705503444360068200008262410240201115588911052484443600682000078093702602011173805090440344436008700000797837026020111597255501827444360095200008613370260201116155390027504443600944000081623902502011157063290462844436007090000727139025020111604748604258444360082400007480430230201115691026012854443600846000057554302302011161417700128544436009630000857345022020111653766301285444360085800008526410240201116447595032244443600858000081623902502011164008280322444436008560000788541024020111629142404425444360084400007753390250201115952190)
 (.leaf 3867444360085800007369410240201116156751040834443600858000079144302302011170104740596944436001440000411335027020111575741205108444360048600005525390250201114781160053494443600349000049983702602011158969780773744436001390000699745022020111501102205601444360069200007174300000211113325568055994443600692000071743000002111133255681019244436000000000556445022101111552089309708444360002800003836410240811116078743000004753600055075932504302310011156269370000047536000280000799743023020111586763600000562360048600008981430230201120454043000004443600517000090174502202011158074220000044436004860000892041024020111583501300000444360060100009017450220201116278739))))))
 (.node 16 (.node 8 (.node 4 (.node 2 (.node 1 (.leaf 444360058500008796390250201115942313000004443600486000087443702602011163935660000044436004860000874437026020111906814900000444360048600009023475210201115908830056974443600803000089714302302011160498260628144436004860000871137026020111543516306281444360048600008039370260201119169955071484443600486000077644302309011158489301059215336004860000853437026020111543422810592174360048600008553390250201115495766105920003600024000879496001609111158503641002344436001440456717445022090111607612909957444360062301295169390250911115878910094144443600643380574174502209011156277371059244436006822417779545022090111636793910592444360004000008934700121411114668598)
 (.leaf 6776444360058500008801450220201115575664064934443600549000087435002002011158065160750644436004500000819847521020111940581606815444360048600007807410240201116336643052734443600576000080974502208011161332150472044436001440000895162515140111583827210592444360014800008891625150801115628433105924443600164000089226501414011157751810472044436004860000901867513020111520359704720444360048600009038675130201118795193047204443600486000090296751302011153479921059244436004860000899867513020111542384204720444360048600008960675130201115263153047204443600486000089906751302011148598090140344436005170000896243023020111531453010592073360046700006951350270201115881067))
 (.node 1 (.leaf 1403444360092300006640390250211116234632014034443600911000056534102408011200086580642044436005400000597637026140112011336610592073360044200007550450220801116039935105920733600486000067554752109011154651390330944436004860000840839025090111557257008462444360062303508262410240911115706582084624443600349000053574102410111159031471059200036006560000861445022101111556894509968444360056700005381430231011119539737099684443600293000058644502210111158671701042144436003490000838841024141111609444410145444360082400008596430231401116013936056324443600948000056624502202011159670180563244436006430000886441024020111589043010592444360097100009018475211401119972317)
 (.leaf 2258444360102200009017450220201115974110073854443600714000090315751702011158499270962644436009460560872943023140111578090904454444360088800008726475210201115924660105924443600916000089774752114011161824200723844436007790000874239025020111576060510276444360014400006446350271411116514353053354443600689281370004102402011162865500443344436006820000552539025020111562811004587444360062300005755430230201115459757043924443600682000065434102402011160397460454044436006820000696641024020111575065704359444360068200005760410240201115639932066494443600176000055863502702011136790340422044436008580000737545022020111536025705607444360069800008388410240201115634152)))
 (.node 2 (.node 1 (.leaf 3167444360069800007173370260201116354747031014443600930000080163902502011152526250089044436007790000812341024020111576604904590444360087200007299430230201115720242014874443600896000055854752102011159606220293944436003410000617147521020111584349701285444360085800006535475210201115717874012324443600793000061714752102011158795480128544436009070000614445022020111618656801285444360090700007432390250201120043194032244443600714000085013902502011161195000322444436007660000855339025020111647940203224444360074200008487410240201116113923050664443600782000084414102402011160349580458544436007900000662143023020111375745003658444360083600005958450220201114525860)
 (.leaf 5604444360069200007174300000211113325568055814443600692000071743000002111133255680958344436000600000497043023071111597747407941444360010402432885430230211115532134000004753600021000057564302302011159160470000056236005400000902347521020111991830200000562360048600009023475210201119820746000004443600634000090174502202011198277050000044436004860000902347521020111620744000000444360051700008840390250201115970590000004443600486000089204102402011196147080000044436004860000880939025020111565200600000444360048600008987475210201115700472000004443600634000090174502202011163491050569744436005850000899447521020111613471505697444360051700008986450220201115713909))
 (.node 1 (.leaf 5697444360048600008670370260201115688727062814443600486000070893502702011160072610628144436004860000708935027020111585340406281444360047700007089350270201115764426062814443600486000072983502702011159930210714844436004860000724435027020111589261607148444360048600007277370260201115919711071484443600486000072773702602011157435661059215336004860000748739025090111918185310592153360048600008728410240201115308155105920003600413045778293502709011158051551059200036000210859821252519090111587088510592000360002102438072575170911119585415105920003600423035175644752109011192545841059236536006560000567939025091111961689509102444360055802435743390250911115978223)
 (.leaf 6815444360050506627669390250201119397557105924443600157000089996501408011153811531059207336005580009893943023020111912871110592073360055800008254430230201115636780105920733600467000067133502702011191443231059207336008350000565341024080111580626510592073360054000006445390250801119414711105920733600423000074214302308011159302771059207336003570000659250020090111930169110592073360048600006711430230901119321429105920733600528000052764752109111190690900846244436006170000815243023141111593144708462444360054000005118410240911115803257087614443600704000057244502209111160984560937844436003220000569050020101111580364610592626360025700005498475211011115758825))))
 (.node 4 (.node 2 (.node 1 (.leaf 10559444360019300008388410241411116523408105924443600714000086974102414011162065300488644436008250000835743023020111624043801200444360092100005440450220201116483234056324443600920000060584502202011160878300860644436010660000896847521140111548183310592444360068200008809390251401115286586091974443600819000067593702614011166118541059244436007040000737939025140111613530605065444360066900006445390250201116018562100364443600709000085734502214011160326550555644436006640000835743023020111625769406088444360046700007753390250201115300654044684443600682000071003702602011163633260537044436006820000837737026020111608088900000444360101200008098450220201115842602)
 (.leaf 2640444360088500007135450220201115905617002294443600825000073864302302011164523910043544436006820000673745022020111601098800000444360071400004457475210201116033396000004443600643000047314752102011162343390046944436006010000470945022020111639682001285444360068900005276475210201116180361012854443600848000067764502202011165998180128544436008650000821943023020112064860504552444360084600008292430230201116053855042674443600819000070193702602011155212440381944436009211032717141024020111549725302824444360084800004875430230201115719392030464443600858000056534102402011157165020450344436007300000595830000020111332556807941444360023200002721410240811119619929))
 (.node 1 (.leaf 475360070900002572350270211119189261000004753600322000051873902502011158169470000044436005490000892041024020111604085500238444360054000008744370260201119238164000004443600486000089814302302011199600900000044436004860000865535027020112035785000000444360048600008744370260201115788086050754443600486000090174502202011196421970000044436004860000884039025020111634412700000444360048600008796390250201115590459000004443600486000090234752102011160231480000044436005170000902347521020111621022900000444360048600008944475210201116102283056974443600558000089584752102011162194870569744436004860000897747521020111609978405697444360048600008148390250201119408980)
 (.leaf 9604444360046700007160350270201115807686105924443600467000071753302802011158610841059209536004670000700631029020111606362910592095360046700006993310290201115886329105920003600467000070603302802011158196771059244436004670000706033028020111568751110592153360048600008613370260901115672934105921533600486000085773702609011190894701059217436004860000851437026090111906864710592174360048600008635430230901115742968105920003600486000086945002002011192331761059200036000180000823255018090111601003510592000360050501318036450220911115720706105923653600540000057234102409111158459141059235036006010000560639025091111617308309980444360016400005962430230911119826219)))
 (.node 2 (.node 1 (.leaf 9980444360023200006205475210911119516510092274443600592000065055751709111161628451006144436001860000895162515020111572844607337444360051700007375370260201115877707097854443600467000077533902508011159403180978544436002070000813157517140111571442210592444360048601319050675130201118936390105924443600486000089826751302011149410130472044436005580244896243023080111515755610592073360055800008343430230801119297746105926043600486000063923702602111161904271059207336004770352714743023080111921413410592073360033400007207500200801115859609105920733600517000056125002009011156544510846244436005400000556445022091111576992008462444360055800005196475210911115828951)
 (.leaf 10592291360060500005788450220911119419991105925123600576000058785501809111159360060876144436003220000632652519091111591018709983444360069800006483410241411115985439105924443600329000070183502714011161930271059244436003290000701835027140111619302705241444360068200007853390250201115886922056324443600908000057444102402011196473571059244436009210000683447521140111932827410592444360077100007337390251401119699006105924443600423000090265501814011161967640916944436004770000619939025140111613580310163444360079300006951350271401115952682097064443600623000079383902514011162754381059244436006860000895745022140111655758106784444360056700008377370260201115838174))
 (.node 1 (.leaf 6747444360063400008514370260201115164935072144443600220000068063302802011150900380046944436008900000846243023020112151620001232444360045000006220450220201116029722056784443600669000038725002002011162367780567844436008030000527647521020111596960003224444360088500005440450220201116225624032244443600916000049744502202011159244480322444436008970000616745022020111965896103224444360087700007838450220201116134571032244443600839000085484302302011168133220345244436008480000756741024020111649768103930444360087500007786410240201115455268006634443600946000055454302302011142757080460844436007670000588837026020111609645504759444360071400007325370260201116003145)
 (.leaf 3666444360084600007210430230201115805439047464443600605000057444102402011154055340407444436008340000614243023020111580329903323444360083800005114430230201115989311105924443600004045987995002007111150737411006544436005400246886557517071111611969810065444360056700003146390250811119411890000004753600714000026603502702111154859500000047536005050000701937026020111644831800000562360044200008223390250201119734456000005623600505000086984302302011158987090000056236005050000888343023020111640867505125444360048600008744370260201115790888002384443600486000086133702602011160315630000044436004860000902347521020111575724005075444360048600008744370260201119301126)))))
 (.node 8 (.node 4 (.node 2 (.node 1 (.leaf 444360048600008840390250201116038612000004443600486000087443702602011157002070000044436004860000902347521020111603010600000444360048600008958475210201116200027056974443600486000089304752102011162539100569744436004860000753939025020111577252305697444360048600007539390250201119440034105924443600467000070403102902011159504911059209536004670000687231029020111580920210592095360046700006945310290201115705934105921443600467000069823102902011192030791059244436004670000690631029020111553833810592000360036600008914500200901115753727105920003600307000088955251909011162895011059200036000210000891057517090111580592410592080360001801328251550180901115819564)
 (.leaf 10592000360030700008156525190911115907835105920003600528013257433902509111157292340956144436006170000898755018091111579385110592444360002600008942525190911115737672105924443600028000088945501809111156017641059244436001160000900957517101111568027607337444360060500007975410240201115771415097854443600450000072863902514011160758350978544436004670000780741024080111592895104720444360014400008951625151401115805671047204443600144000090076251514011156860041059244436001760000743462515080111535250610592444360017600008951625150801115469046105924443600341001188325251908011155191671059218936002210000892557517020111533119304720444360050500009046650140801114888660))
 (.node 1 (.leaf 10592073360055800008310430230801115694951105920733600467000066293502708011158066411059207336004670000539935027080111572338310592073360062300006809310290801115791987105920733600322000077145251908011156975151059207336005170000719047521090111595798010592073360051716127010475210901119472219077414443600517000053935251909111158891540774144436005170000563552519091111930785808261444360041300005522500200911115779406087114443600549000054294752109111156947790981244436005400000854843023091111622472210592444360030700009030550181411114886728064744443600682000086504102402011157997050556244436006820000770733028020111506725304605444360084200005825390250201119303501)
 (.leaf 9892444360089800006789430231401116169479099904443600704000057113702614011159711970999444436006690000689237026140111607174505551444360060500006392370260201115555443105924443600144000082203302814011160306680652344436004000000755935027020111568540305914444360060500008090390250201115528737012324443601121000090064502202011209585320462244436007790000679747521020111616740503224444360066400004923475210201119386931032244443600782000057564302302011160406530345244436008710000604943023020111646115204696444360083906648192410240201115907626004844443600946000053434302302011136988320141844436009460000662143023020111716226904533444360068900005732390250201116192601)))
 (.node 2 (.node 1 (.leaf 5089444360043100006068390250201116132111030304443600858000067764502202011150116410501444436008360000749545022020111542525010065444360032200004646550180711115841871000005623600186000072713902502011158566640000056236004000000754239025020111637261200000562360061300009012450220201116261252000004443600486000090124502202011162757870512544436004860000863339025020111573402000420444360048600008491350270201115750187000004443600486000086553502702011192312270000044436004860000892041024020111581869801660444360048600008655350270201119230484016604443600486000087443702602011158820190023844436004860000874437026020111650973600000444360048600008744370260201119246563)
 (.leaf 444360048600008744370260201115930552000004443600486000089774752102011160118520569744436006210000895847521020112003676305697444360017600007820500200201115414491096044443600334000079094502202011156175820960444436004670000714233028020111569117609604444360046700006808310290201116054702105924443600467000068723102902011160218471059209536004670000685131029020111941305210592095360046700006808310290201115809242105920003600467000068083102902011158235861059200036004670000694531029020111594747410592380360035700006906310290901115813738105923803600104000088145251909011159801571059200036002260000896655018090111581587410592626360036600008800475210901115886836))
 (.node 1 (.leaf 10592000360044200008832525190901115545260105920003600021024781955501809011157618291059200036003570133735452519091111562086510592000360058500006075430230911115808657105921213600656000058803902509111158885971059235036005400000552439025091111588879009227444360054000005856390250911115777847095614443600623000089154752109111155185001039244436004770000860741024091111586574810592444360032200008992625151411115801992105924443600144000088926001608011158695781059244436001920000899360016080111538926310592444360050500008991650140801115601475105924443600486000090056751308011156312720472044436005050000900665014080111865808510592073360054901338883430230801115765686)
 (.leaf 10592073360036600005980475210801115940653105920733600517000073104752109011161955940846244436005170000492347521090111590678608462444360051700005029500200911115574189084624443600517000057775251909111157727960826144436005170000570952519091111581026908676444360052800005477450220911115797595082614443600714000047444502209011193955360826144436006130000533845022081111972397309459444360051700007264430230801116473157105924443600413000090035251914011181423520614144436005850000805637026020111605894409123444360070400005900330281401116195775102524443600849000083333502714011156914221059244436005400000791729030140111332556809960444360083600006911350271401115894383))))
 (.node 4 (.node 2 (.node 1 (.leaf 10592444360040000007122350271401115178270094754443600467000074033702614011146937260519344436008580000885345022020111576858704378444360093700008728410240201115460113000044443601074000089124302302011152201410123244436011210000901745022020111713117105420444360071900008727370260201116197030056784443600517000084613502702011164981880462244436004500000822339025020112001297904761444360020700007320475210201116093974047614443600334000072014102402011162919810462244436003660000565341024020111928485103703444360068602476790410240201119311900032244443600918000058654502202011195197470406444436006890000535841024020111590663709320444360085800007978370261401115141586)
 (.leaf 990444360094600006049430230201115142448010834443600946000061424302302011154818330407544436008580000615837026020111589007807259444360038400008187370260201116376482055634443600505000059763702602011166619570398844436008720354686243023020111581989004482444360084400007914430230201115822010061604443600221000070363902502011162759770108644436009430000616745022020111556570101183444360094300006426450220201115757184039344443600864000055103102902011155109120384844436007960000574745022020111532679809904444360000600007905525191611115599995105924443600021000089706751316111158730601059244436005050000826657517071111944127600000475360000500004269475211001119127727))
 (.node 1 (.leaf 562360046700007173370260201119644504000005623600477000082233902502011164239860000044436004860000884641024020111593095600000622360048600008477350270201119441574016604443600486000086333902502011158581630023844436004860000889041024020111599050103959444360048600008655350270201115413048000004443600486000089204102402011193791920000044436004860000900147521020111706966002445444360048600008987475210201116101277056974443600021000079726251502011156639660960444436004670000690631029020111575871709604444360046700006808310290201115917575105922963600467000068323102902011158633051059209536004670000694433028020111950592510592095360046700006594310290201115892060)
 (.leaf 10592144360046700007006310290201115748746105921443600157000064453902502011158863501059214436002830000685131029090111577417310592144360020700006929330280901119261768105923803600025000088766251509011189571000512544436002830000889455018090111574508310592000360046700008635430230901115903657105920003600442000086115251909011156398341059200036000210248854357517090111560797310592080360002100008022600160901115903760105920003600207001375695251909111154820101059212136004860000762947521091111574598908439444360054000005679390250911116495571095614443600170000070253902509111195501340869744436002320000687139025091111569891108697444360064300005326390250911115715674)))
 (.node 2 (.node 1 (.leaf 10055444360036600135829430230911115981355105924443600226000088945501814111157727630978544436004420000763045022140111931023109785444360046700008019430230801116002070097854443600601000076354102408011196633330987844436004500000745441024080111584027710592189360020700008846575170801115136139105921893600528000079745501802011151411101059218936005170000783960016020111530072410592189360052800007623550180801115547390105924443600467000057933702608011158356211059244436004860000894967513080111585514504720444360048600009012675130801118775667105920733600477000086133702608011156539181059260436004670000720735027081111605237310592073360046700005479350270801115531975)
 (.leaf 10592073360050500006724390250801115739248105920733600779000054404502208011157605091059207336006690000588447521080111601256610592073360052800007629475210801116005157105920733600517000075484752108011190345561059207336005170000588347521091111576628210592212360051700004923475210911115659492082614443600540086349445002009111158681940826144436007090000490445022091111571576108261444360071400006049430230901115922888105924443600413076389885251914011156808791059244436007790000898143023140111605975604505444360084900008292430230201116110251105924443600844000086684102412011163056051059244436006560000869539025120111594917110428444360054005667983290300901114776423))
 (.node 1 (.leaf 10592444360014400008282330281401116675023080584443600623000086253702602011156519000059844436010420000889643023020111541967400357444360098200008905410240201116501185054204443600896000087963902502011162393590462244436005170000856635027020111602162003703444360028300005339390250201119367605037034443600837000061444502202011194472340370344436008850248679747521020111575969303452444360089600005865450220201116027819013014443600856000068914302302011160654010397944436008670000440845022020111583606903165444360084500004904450220201119796497044044443600689000065434102402011158447091008344436001440000850435027020111712367707446444360030700008223390250201116726897)
 (.leaf 5195444360077700008416430230201116494859016734443600946000067894302302011157463110223744436009180000614243023020111564194300386444360094600005114430230201115989311039314443600864000055103102902011155109120563744436005430000715435027020111538637008959444360003200005756430231001115466643000004753600104000059204102402011157655800000056236001980000764639025020111601919500000562360068600007223350270201116221373000004443600517000090124502202011162953930512544436004860000856635027020111579192000238444360048600008566350270201115766683004204443600486000086043502702011189949510681544436004860000861835027020111613112400238444360048600008981430230201116363763)))))))
 (.node 32 (.node 16 (.node 8 (.node 4 (.node 2 (.node 1 (.leaf 238444360048600008840390250201119933104039594443600486000086553502702011157789530569744436004860000836547521020111691484005697444360010000007911550180201115698401000005013600226000072263902502011155655051059244436004670000680831029020111941397610592095360054000006944330280201119617437105920953600540000067983302802011159706831059228136003410000726335027090111577852110592144360018600007259370260201115821117105921443600467000070373502709011195512191059244436004670000627637026090111593290010592380360021500008605390250901115805368051254443600021000088766251509011154931390512544436001920000891057517090111562338510592000360046700008895525190901119247838)
 (.leaf 10592000360046700008611525190901115654122105920003600357000076565251909111157034541059200036003220000765652519091111586875210592582360057600006234450220911116078042105921493600357000068523502709111157787820869744436006230000594141024091111581750010055444360059200147086390250901119679411105924443600192013576024502214111156455321059244436006560000870060016020111576311110592444360014400008155625150801115698008105921893600517000076806001608011151500661059244436004670000702131029140111591650210592444360047700008911550180801115499190105920733600467000072253502708011155031311059207336004670000537633028080111894763810592073360046700005047310290801115352385))
 (.node 1 (.leaf 8607444360081900008596430230811115849356086074443600517000070104752108011158517140860744436005170000645747521080111548850008607444360051700006171475210901115463661086074443600517000061714752109111155013021059221236005170000468147521091111913361510592549360060500005102475210911115571173105922123600704000046814752109111155067181059240336006210668540845022090111599921910592444360047300008978500201411115885235067904443600682000086974102402011154208701059244436006860000862041024140111569858704597444360070400006032410240201116282924070164443600858013557444102402011158500530975044436008451737636541024140111595550510592444360088232206948410241201115925731)
 (.leaf 10264444360084934197344410241401116059378105924443600782268973373902512011158582421051944436005673080695135027120111599103810592444360060126358523370261201115757282105924443600714362483883502714011161713751039344436008321843833335027140111574133310592444360063423378605390251401116197215105924443600000000072212503214011157222691059244436000280000732629030140111608139510592444360068200008514370261401116398577105924443600682000085233702614011160911870796444436007190000880939025020111674936604622444360052800008566350270201116376790046224443600528000086043502702011166720450584444436005280000785435027020111626777003703444360090100005585475210201115741853)))
 (.node 2 (.node 1 (.leaf 2842444360085801356776450220201115862343037894443600935000074214302302011157889970461444436008460000692539025020111587466404539444360077900006445390250201116783716087954443600198000053584102410111154594730000056236006860000741333028020111586820200000444360068200007413330280201116184326000004443600627000085343702602011159598270000044436006270000809029030020111598889506815444360048600008655350270201115756485068154443600486000085843502702011201955250455344436004860000858435027020111577807103959444360048600008655350270201116013062039594443600486000087443702602011193469700395944436004860000884039025020111958081600000444360048600009023475210201115861539)
 (.leaf 444360048600009018475210201115983811056974443600486000079864502202011158974130569744436000240000838162515020111919690409604444360010000006997450220201115555199096044443600467000068083102902011155754230960444436004670000674631029020111587150010592296360046700006832310290201115944549105922963600528000069923302802011162244681059209536005050000686533028020111592601710592281360042300007024330280201116071549105924443600467000066553302809011161903901059244436002830000705535027090111573472910592444360002600008953600160901119166884051254443600069000088646001609011157083691059208036004670000815652519090111593636210592603360034103587684525190911115893456))
 (.node 1 (.leaf 10592000360042300006300525190911115705247105921213600505046363265251909111193645661059212136005400000617345022090111600663408439444360060109537264430230901116135937084394443600442000055734102409111198595841059214936000570136545543023091111599050110592444360055800005880390250911115864090095904443600431000079644502208111199702900978544436003660000801943023080111555449110592444360018600007650600160801119075987105924443600467000084863702608011192088401059207336004670000754335027080111575110710592073360046700007000350270801115613777105920733600467000050473102908011155323691059207336004670000596031029080111574548910592073360056700156740370260801115892403)
 (.leaf 10592073360063400007134475210801115746212086074443600517000062694752109011152906100860744436005170000608947521091112044470210592212360077900005958450220811115879670082614443600682000069484102408011158791331059240336007770000681345022090111586427110507444360044200008815500200901119700674105924443600837000089435002014011159166111059244436004280000889750020141111616784910592444360049800007574450221401115967519101084443600601000082233902514011166645060966244436006390000793839025140111633246705300444360045000007125410240201115879144016634443600897025052214502202011157343440660044436008530000593441024020111603683804869444360087700005314350270201115864080))))
 (.node 4 (.node 2 (.node 1 (.leaf 9486444360089721835615370261401116048831105924443600627402668513102914011159529531059244436007093398865337026140111611733610592444360054916188321330281401116430843105924443600601000085143702614011156298260896244436001440000809733028020111715673700020444360098200006317575170201113716293086994443600423000085773702602011166194600816844436006640000877839025020111570346100000444360114100009017450220201115844280009514443601006000090174502202011159893920285844436008320000899345022020111621686705844444360052800007122350270201115993183045414443600528000083333502702011200748990476144436004420000820635027020111987283001787444360082400008635430230201117417387)
 (.leaf 3703444360088500006509450220201116024789013014443600908000047444502202011159431930215044436008900000428345022020111576910808024444360046700007259370260201116518678045094443600779000060903902502011159242990465544436006860000615837026020111539485405522444360066100006734350270201116300156053994443600679000065443502702011164575681059244436002140000869450020161111548601308872444360000000005565450221011115662130000005623600006000036564502202011158260300000056236006690000750633028020111917152500000444360068200007124330280201119769347000004443600505000088464102402011159183180522644436006130000824631029020111561738206815444360048600008655350270201116090288))
 (.node 1 (.leaf 6815444360048600008655350270201115962707045534443600486000086283502702011158105850000044436005050000902450020020111593054302445444360048600007420370260201115776491056974443600148000083135501802011158905310619044436000250000824762515020111981870400000501360034100007037350270201115594174105924443600505000069623302802011194961471059229636005670000720037026020111614175710592281360042300007444430230901115821688105924443600413000069293302809011159426581059244436001760000790841024090111576083105125444360002100008289625150901115756539105921593600021000083616251509011158128921059208036003410000805155018090111607579410592080360041300007982550180901115256371)
 (.leaf 10592000360046700006231500200911115822640041444443600334035961194302309111191780860414444436006010000567939025091111580821204144444360041300005963410240911115844083105926193600164000059524752109111160659971059214936001340016593045022091111609283010592032360034900005963410240911115793565105924443600682000057433902509111158700781059244436003340671722639025140111600073708001444360052800007951550180211115993349095904443600528000079974302308011159995230959044436004420000785743023080111608467010592444360014800008027525190801115818657105924443600144000073605251908011156061731059244436001640000685655018080111892838504720444360047700007322410240801115316267)))
 (.node 2 (.node 1 (.leaf 10592073360051700008079500200801119211973105920733600505000070863902508011158010971059207336003570569722841024080111568667610592073360015700007490525190801115764090105920733600528000058203302808011158722041059207336004310000699037026080111561495708607444360047700006772500200901115781936086074443600486000059524752108111155772230860744436005280000626750020081111561665710592212360062100006113500200811120460126105922123600639000046995002009111156019401059254936007420464517345022091111955586810592212360077900005662450220811115766507105924443600273000090436251514011156295520988844436003430000768141024140111585253910079444360000000007567410241401115243537)
 (.leaf 10193444360000000007978370260201116728940105924443600247354185684102412011158394000424444436006893661814735027120111962590604244444360084940245976370261401115891978082394443600848345863333502708011158669990912044436008750000679639025120111563993207648444360090402515732390251401115571072092374443600848086867963902514011156012570411544436008240000555233028021111559417202845444360083900004974330280211115885672028344443600845000047803302802111150594500356144436008580000739245022020111593742508573444360054900008709390250201116248173044474443600858000084384502202011165097180000044436011410000901745022020111589125900000444360110400009017450220201116042166))
 (.node 1 (.leaf 444360109500009017450220201115925562038254443601048000089814302302011164069660253644436010320000896745022020112034017303596444360089100007786410240201116718908041344443600865000045314752102011161688450171544436008750000428345022020111557163905236444360060500006497370260201115688172053304443600528000058883702602011143000390932444436003540000702331029020111462049304908444360070400006724390250201115953656054444443600639000070253902502011153117160540044436006770000654435027020111645473804499444360073000005958300000201113325568044984443600730000059583000002011133255681059244436001360000856652519161111557356208630444360011300006509450220711115464307)
 (.leaf 7521444360001000005251450221011115418478000004443600669000076073302802011203526990000044436005170000851437026020111615696705226444360057600008507330280201115748773052264443600540000089885002002011198054830323444436004860000864235027020111933014604553444360048600008655350270201115655398024454443600486000086463902502011156859180244544436004860000902347521020111995724402445444360057600009017450220201120543917024454443600505000090184752102011159306210000044436005050000901347521020111968164202445444360050500007923390250201116353378024454443600505000080174102402011159000850244544436005050000815641024020111956218806190444360015700008397550180201115853899)))))
 (.node 8 (.node 4 (.node 2 (.node 1 (.leaf 501360011300007857430230201115692058096044443600100000078974502202011158677370960444436001980000724539025020111595429609604444360040000007096330280201116064894105922813600170000077935002002011159334971059228136001640000789147521020111598031110592281360059200007284390250901116074750105924443600540000078195251909011154519780439744436001700000808543023090111573533005125444360002100008269625150901115906654105921593600170000083266001609011157208361059200036004000000819555018090111885231410592080360034100008211550180901115201176105926033600431000082945251909111151984771059226836001920000762652519091111940867410592080360068200005496350270911116150126)
 (.leaf 4144444360046700005941410240911119460970041444443600517076756894302309111154898000989144436004670000508339025091111589866409358444360054000007454410240801115925520087464443600221000074105002008011158690221059244436002930000745052519080111533383910592444360015700007042575170801115218416105924443600157000079686001608011154402801059244436004670000579337026080111572246204720444360050500008972650140801115707310105920733600144000067925251908011156558391059207336003570000605137026080111566601210592073360046700005900330280801115925098105920733600517000056533302808011155939441059207336005670000659637026080111508580310592073360066400006939450220811115064627))
 (.node 1 (.leaf 8607444360034100006834475210901119332153086074443600505000060894752108111155844191059221236006130000564845022091111607393806190444360060500006884450220901115892964099164443600505000085665251909011160258960961944436006390000891547521090111651888810298444360001000007455350270801116124229097884443600000205969313502708011162746121000544436000723083740337026140111629558709712444360059234838152430231401115287332053774443600467234460324102402011153224070945644436006432232692443023120111554712103745444360084526656049430230201115911844024644443600907257564835002002011150714500415344436007900767605845022020111534816200046444360096906735708500200201115546468)
 (.leaf 6467444360092800005287525191401114826154010294443600920000052875251902011151110380373244436008820000621735027020111496828409450444360065600006066330281401115966232009664443600941000060784752102111153290820583444436009210000544045022090111522346808185444360061300005222370261411114965317074194443600664000057444102408011157611370928044436001040000571137026140111651594010126444360000000005940350271201116341218051664443600977000054594752108111140112960512844436009830000570850020081111552593105703444360098400006457475210811114730438049864443600984000049904752108111144201200493144436009840000474445022081111538622205103444360098400005440450220811116191122)))
 (.node 2 (.node 1 (.leaf 10052444360000000007223350271411114656343101514443600016000074033702614111154920581038944436000000000745535027081111528438609275444360084500007938390251401114379650105924443600423000085283502709011154578481037644436001160000763530000080111421476004276444360085800008241450220201117495973105924443600144000085293302814011149879551059244436001440000851833028140111512204200000444360114100009017450220201115606107000004443601141000090174502202011165932010592744436005400000899345022020111663958704622444360054900008939430230201116055958048924443600721000077864102402011164017480413444436008770000497445022020111614561503670444360083900004296475210201119586090)
 (.leaf 3670444360079900006579410240201116588735063494443600505000071333702602011153804570520944436004670000693837026020111539355908271444360042500007337390250201115761368046874443600704000060903902502011158211400465444436006640000588837026020111628098904830444360077900007853390250201114669799054054443600677000065443502702011164547380449544436007300000595830000020111332556804493444360073000005958300000201113325568056214443600692000071743000002011133255680971444436008730000663955018160111332556809713444360087300006639550181601113325568000005623600000000031394502202011157577630000044436006010000741333028020112006798900000444360070900008147350270201116298084))
 (.node 1 (.leaf 444360050500008546370260201115746419052264443600540000089685002002011195532880681544436005400000901950020020111602967104553444360048600008825390250201119218282024454443600486000089584752102011193084930244544436005850000901745022020111604393102445444360050500009007475210201119592321000004443600486000090074752102011163356860619044436004670000692131029020111583884906190444360046700007076310290201115872757061904443600021000083246251502011160426680244544436000320000817947521020111576772702445444360019800007779390250201115904908105924443600134000076314302302011160431021059244436005170000708935027020111631426910592296360060100007364410240201116029682)
 (.leaf 8792444360001500007547500200201115739867043974443600549000074204102409011154686271059200336000240000832462515090111597730610592003360002100008344625150901115768658105921593600024000083616251509011158924331059215536004000000813650020090111547585010592155360023200008292575170901115286001105925233600467000076265251909111187884971059226836003660000741152519091111567441010592268360059200005858410240911115751681105922033600643000056303702609111158049020414444436006010000584737026091111898518704144444360028300005963410240911115753242041444443600528013955304302309111155777491009944436003410768675937026090111628840309643444360047700007685430230801116064139))))
 (.node 4 (.node 2 (.node 1 (.leaf 8746444360016400007754475210801119405952105924443600643000079055251908011190477821059244436002070000762157517080111555273910592444360014400007797625150801119178124105924443600477000066205251908011155668440472044436004860000840267513080111576402110592073360047701398865575170801115720739105920733600186000071515002008011157461671059207336002210000782045022080111603051510592073360038400006789430230801115558303105920733600528000085394752108011149808021059207336005050139829243023080111875209608607444360061300007075475210901115514344086074443600613000056484502209011158521181059221236006010000531943023090111909327910592212360064300005585475210901118986556)
 (.leaf 6190444360068900006737450220911119664511061904443600664000066754102408111160388691059205236006270000718247521080111968902310592052360025700008846575170901116171312099164443600517000085955751709111158370791059244436005310000866347521090111593059209018444360000000006931350270201115440058074754443600198128161573302802011153279461006044436000000000654435027020111483248009216444360090816237297450221401115846700102734443600000000060323502714011169934400914244436007710000686243023140111614188309863444360021500006547390251401115753655069994443600032000052223702602111160160940991544436000720000603235027141111603396806506444360017600005479350270211115748273))
 (.node 1 (.leaf 9085444360000400004998370261411115752291095094443600198000058593502714111149299780341444436008770000601239025020111573702506558444360094300005114430231401115512713063174443600943000046514302314011159262180581944436009200000499741024090111525133602727444360084500004335410240211115841061074724443600779000045873702614111157449050528044436009580000523847521081111446846604724444360098300004337550180811113671599043184443600982000033485751708111141882400752544436005760000583535027080111528091807798444360041309566393390250811116008865097684443600022000071733702614111159280850968444436000090000701937026141111543935009595444360000000007300350270211115802709)
 (.leaf 5157444360099300009017450220801116421532077704443600549000090124502208011166011330905644436005490000900645022080111997143909056444360054900008926430230201116113739046224443600549000088184502202011162213020578844436007930000872841024020111631137010592444360000000008836450220811115537757046984443600413000069484102402011164602460284144436008820000428345022020111579243304424444360084900004974450220201119840772040924443600896001882624102402011153201070730744436006820000787145022020111611047104662444360077900006322390250201115047548057934443600558000068293702602011149891410762044436004670000724037026020111577238504441444360069800007353390250201115475164)))
 (.node 2 (.node 1 (.leaf 5502444360070900008355390250201115588641054064443600676000065443502702011164515540449144436007300000595830000020111332556804490444360073000005958300000201113325568056194443600692000071743000002011133255680989744436001360000389443023161111524936100000475360000800006163450221001114931852000005623600015000038944302302011155534860000044436006050000827435027020111690355000000444360051700008820430230201119416394041594443600601000087284102402011158742570323444436005400000891450020020111942574002445444360066900007344410240201116257517024454443600567000072524752102011158697910244544436004670000709633028020111612676702445444360054000006982310290201116030066)
 (.leaf 6190444360046700006930310290201115802640061904443600060000080515501802011157249880244544436000040000799957517020111590477700000444360002000007873500200201119344223105922963600002000076215751702011195347191059229636006210000752643023020111578565708792444360034100007018350270201115809963087924443600136000075985002002011158995921059228136005170000707435027020111592370904397444360062100008783430230901115736536043974443600467000075264302309011158540121059200336000690000831157517090111571770510592003360002400008289625150901115778194105920803600283000080725751709011156471441059215536003410000821252519090111884854510592000360019800008131575170901118724664))
 (.node 1 (.leaf 10592000360027300008193575170901115074127105920803600413000080515501808111156005031059226836004670000762947521091111550411410592203360061300005780370260911115764749041444443600682000059283702609111158590620414444436001000000887857517091111540683204144444360062700005530430230911115837149104474443600528000070253902509011161041551059244436003070000693837026140111974589710434444360054900006951350271401116001396105924443600621000070063102914011153703370874644436002730000894252519081111600022808746444360038400006592500200811115449032105924443600442000078855002008011157347081059244436001440000896362515080111531750510592189360047700006854500200801115569755)
 (.leaf 10592444360048600007066550180801115587102105924443600477000075674102408011160112691059207336004860000802667513080111559844010592073360055800005732390250801115977170105920733600144000080896001608011159869641059207336001440000774355018080111574388810592073360048600007115475210801115736288105920733600467000079844752108011154017581059207336004670000775447521080111919879210592073360046700007523450220801115733079086074443600576000074954502209011193217761059200036006820000654245022090111941816110592000360070900005841410240901118859352105922123600643000073034502208011158753880619044436006050019681345022080111589778406190444360077900007375450220801115981219))))))
 (.node 16 (.node 8 (.node 4 (.node 2 (.node 1 (.leaf 10338444360014800008865575170901115467031103384443600467000077375501809111160087301033844436001860000709043023090111593392205283444360043000006058450220211114730225072964443600024000052223702602111157277651025044436000280000766135027090111541393909341444360036600007163310290901115539131095234443600682000070582903014011156641540872844436001640000665335027090111614718809525444360036600007300350270901116019648097814443600016000070003502714011161806981034644436000140000760837026140111659306610592444360059200008538390251411116262040105924443600592000086553502708011150009301010244436008480000898143023080111585733708717444360056700008846410240201116574461)
 (.leaf 9093444360059200008628350270201117796426028414443600872000047444502202011160714280309744436008900000522145022020111953855803835444360087100006483410240201115808039041814443600799000057323902502011148067700294944436008790000616745022020111439727407531444360068200007909450220201115772813044444443600779000056863502702011151998980511244436007990000695135027020111602711804674444360071900007353390250201115858248045134443600777000076463902502011157612480964444436007150000588755018160111332556809637444360071500005887550181601113325568078434443600002000027214502210111151980820752144436000070000459445022101111887207600000444360048600008041430230201116408190))
 (.node 1 (.leaf 444360054000008234500200201119323268032344443600643000083423102902011158009000545444436005670000871137026020111978660105454444360066400008742390250201120117538040244443600682000087783902502011198355330439744436006820000861939025020111935414502445444360047700007079330280201115867695105924443600613000070923102902011193642810619044436004670000688931029020111615442706190444360046700006889310290201116176089061904443600357000071143702602011159389320619044436004670000688931029020111577180200000444360021500008036450220201115837679105920003600247000069383702609011196238400879244436000250000891155018020111585236308792444360022600007317390250201115818287)
 (.leaf 4397444360059200008683410240201115615701043974443600467000074434102409011193656181059200336002470000803941024090111580414210592003360002100008361625150901119089953032294443600170000086496001609011192666541059215536001980000868857517090111876689210592000360027300007999575170901115456196105922033600273000087795501809111156015950414444436006130000568835027091111545665604144444360040000006294410240911115461495105920003600639000060313902509111155401480414444436001760000653155018091111572648410447444360068200006353250321401116027524105924443600486000089135251910111157999130913844436006690000888343023081111589416408746444360047700008396475210811115514691)))
 (.node 2 (.node 1 (.leaf 10592444360018600007953475210801115979738105924443600186000089246001608011187719091059218936004860000718055018080111482956410592444360046700005861310290801116127121105920733600467000065875251908011158881051059207336001440000770260016080111592981210592073360021500007894525190801119345175105920733600467000081794752108011155934751059207336004670000811747521080111563339910592073360046700007376475210801115354366105920733600613000075724752109011158263771059208136002930000640443023090111608243510592000360066400006966450220801116150836105920003600771000078204502208011159519680619044436007420000775447521080111603954010592052360051700008953600160901116130735)
 (.leaf 10338444360018300008965575170901119047162102184443600322000077655501809111157119300951244436006640000844141024091111572794909730444360017000007455350270901116714631088934443600617000074553502709011158827550902844436005050000726733028090111603366910511444360001600007978370260911115712061097564443600020000071543502709011160825360913144436003220000732537026090111621542710057444360018900007455350271411116156251085494443600021000070904302302011157732070879044436004000000688445022020111658912905100444360089000005865450220201116407033034324443600844000069664502202011159193940761544436001570000826347521020111598895404756444360063500006479450220201115900599))
 (.node 1 (.leaf 2386444360090700006167450220201116257354045194443600858000072974502202011157767960464344436006130000469235027020111578802904259444360068600004795370260201116005452046244443600704000061583702602011162102730453444436007790000632239025020111551036405615444360069200007174300000201113325568056154443600692000071743000002011133255680860544436000100000313945022161111516896107833444360000000003656450221011115480746000004753600000000084544502210011157310350000056236000000000713545022101111542072500000444360001600003489450220201119429792000004443600613000058593502702011162725780000044436005280000829747521020111590486404159444360054000008957500200201116010319)
 (.leaf 4159444360056700008898475210201119418399040344443600585000088834302302011162172290583644436006560000882539025020111596348804985444360068200008666390250201115801110056974443600442000073593902502011157314590302344436004670000687231029020111575944702445444360046700007024330280901115958469061904443600467000068723102902011163118900619044436000690000787155018020111625041206190444360013400007598500200201119473432061904443600467000069923302802011157692780244544436004670000691633028020111937000102445444360048600006574330280901119338109105920003600334000070993702602011156057871059229636006050000874541024020111584904108792444360061700008764430230201115503896))))
 (.node 4 (.node 2 (.node 1 (.leaf 8792444360059200008712430230901115796707043974443600585000086684102409011157172670439744436005050000743539025090111938804110592003360036600007776370260901115785124032294443600431000086715501809011151878271059215536004000000858455018090111536645310592000360027300008072575170901115690599105920003600215000087395751709011191582231059220336004130000887955018091111922832810592203360024700008924600160911115590508105922033600013000053384502209111158099841059230636005170365524139025091111923067907152444360041300005858410240911119103524071524443600682000053513702609111158171491059200036000270000889260016091111568932904144444360068200006015410240911119963215)
 (.leaf 10592444360054900007400410240901119937626091384443600467000069725002008011157028251059244436004230000773145022080111609165310592444360045000008434625150801115709628105921893600467000084826251508011151008451059218936004670000551031029080111902568310592073360047700007569525190801115996553105920733600467000060683902508011159896301059207336004670000681455018080111534862010592073360017000006836575170801115525629105920733600164000075255251908011156998361059207336005170000718247521080111915823010592073360051700007115475210801115767604105920733600467000076294752108011190894991059207336004670000762947521080111601438710592000360007200005934410240811115668974))
 (.node 1 (.leaf 10592000360070400008236475210801115932573105920523600558000088776001608011157348301059205236005170000890960016081111900492910592052360051700008924600160901115553560102184443600273000088465751709011154403910958944436004420000749052519090111572956709901444360003000007567410241401116096571099274443600113000074033702614111156945151027544436000330000776335027091111596402109905444360068200007262290301411115254205105924443600682000085913702614011158361450874044436006890000745535027090111621244709122444360026800007223350270901116087477105924443600704000076873000114011145845990400144436007930000693837026020111597721404680444360074200006365410240201115929274)
 (.leaf 2756444360087700005958450220201116657681028764443600870000058654502202011165172360381244436008770000688445022020111550730303444444360085800006167450220201114928390045784443600779000060323502702011147954760417544436007790000585935027020111533776005612444360069200007174300000201113325568089634443600000000067764502210011189010160000044436008670681773145022100111600562300000444360000900006776450221001115386725000004443600442000073253702602011163965970000044436005850000715435027020111617846000000444360062100008215430230201116152496040344443600505000086974102402011160398010403444436005170000874541024020111945821905454444360054000008978500200201115702494)))
 (.node 2 (.node 1 (.leaf 4985444360068200008646390250201115732594049854443600704000087634102402011192244341020644436001920000715760016020111561983005697444360013400007028500200201119459156024454443600442000068653302802011160252981059244436004770000694433028090111954050610592444360060100007006330280901115997828105924443600467000066733102902011161165780619044436005670000699233028020111601755607495444360011600008233525190201119902907061904443600467000071673302802011157704011059200036004670000748835027020111541315610592000360048600006916330280901115969090105920003600467000069213102909011157056501059200036005580000837737026020111908571008792444360063900008898475210201115297727)
 (.leaf 8792444360063900008872450220201119117208043974443600540000080834102409011155821620439744436004770000729437026090111590885010592003360032200007359390250901115343190032294443600198000087795501809011157133930322944436002470000883155018090111549332310592233360046700008566525190901119053300105920003600357000088665501809011158167101059223336002930000880047521090111594070310592203360034900008913525190911119286314105922033600226000087395751709111158102171059200036001830000596243023091111559690010592306360066900005326390250911115725127071524443600048000085435751709111190343231038644436001480000872455018091111955969210456444360066407767602450221401116361524))
 (.node 1 (.leaf 8746444360054000007273500200801115775975087464443600283047160305251908011158590420874644436001980000750257517080111935753710592444360028300007968600160801115540017105921893600467000084826251508011189540271059218936004670000848262515080111884660210592189360046700008434625150801118798580105921893600486000084346251508011151157421059218936004670022585935027080111538256710592189360046700005737330280801119072707105920733600467025857113702608011191277961059207336004670000625335027080111912096810592073360046714976607350270801115903718105920733600221000067554752108011189957011059207336001480000752552519080111559081310592073360046700006755475210801115276447)
 (.leaf 10592073360060500007845475210801115882312105920813600273000075965251908011154317111059208136001760000757050020081111914387210592000360065600007134475210801119722514096694443600686000079765002008011157948510966944436006820022856652519080111609996509669444360054900008938600160801115721521096694443600517000089646001608011154226030966944436004770000762652519090111546833709669444360061300007490525190901115877251096694443600144000069995501809011158027571059244436008460000841929030090111690330506429444360047500007411525190211116256016096814443600682000071252903014111158151561059244436000000000846135027090111672336210592444360000000008206350270901115985181)))))
 (.node 8 (.node 4 (.node 2 (.node 1 (.leaf 10592444360021100009022575170901114946817105924443600336000085793000108011152399051059244436004770000897557517080111535738507705444360059200009008600160201114928737040984443600858000069394502202011163078740481244436008580000755045022020111470103705176444360051100006167450220201114928390040814443600858000068844502202011133255680433544436007790000558635027020111581260104721444360077900006111350270201114910530076844443600656000074623702602011133255680763444436007790000735235027020111444439905404444360067300006544350270201116433514054014443600675000065443502702011164390650786344436000020000330445022101111874080500000444360006000007613450221001115322700)
 (.leaf 444360052800007747370260201116205982092344443600517000085463702602011158879000583644436005490000899447521020111937304203554444360054000008709390250201115857185102064443600617000077424502202011156838261020644436000690000771255018020111596549010592444360043100007302390250201115898630105924443600540000074193302809011197184850801244436005920000722233028020111570893406190444360046700007705350270201115726445105920003600477000075143502702011194071960879244436006560000895847521020111887246604397444360052800008193410240901115609195043974443600477000072593702609011157531691059239836004670000682937026090111555668003229444360043100006975390250901119219227))
 (.node 1 (.leaf 10592405360019200008455575170901119421436105922333600027000088136001609011154101571059220336000250000564845022091111588632010592203360082400005447330280911115430409105922033600486000055734102409111158099431059230636006820000489437026091111916373007152444360068200005477370260911119117407071524443600682000057003702609111154966420913844436006210000697250020080111928515009138444360068200007139575170801119155844087464443600226000075025751708011157962031059244436001440000755562515080111559362110592189360014800007677625150801115355538105921893600517000090276001608011152637611059203836004770000900160016080111561017910592038360048600008228525190801115923496)
 (.leaf 10592038360047700006966450220801115595695105920733600477000066773902508011157867341059207336004770000694943023080111575167310592073360046700006384350270801115775128105920733600450000064993502708011157769971059207336003220000721043023080111562047310592073360046703676221500200801115724962105920733600467000068344752108011155624271059207336004670000817850020080111531728110592081360013600007626525190801119221369105920813600198000060485002009111157358671059200036004310000752345022080111519054009669444360030700008325410240801115821066096694443600400000088704752108011152809071044444436001830000861152519090111564247107235444360074200004744450221401113325568)))
 (.node 2 (.node 1 (.leaf 10592444360046700009022575170801114389160105924443600467000090165751708011161205631059244436004670000901657517080111524203810592444360046700009027575170811115148354105924443600467000090225751709011149169811059244436004670000903857517090111497665310592444360015500008571475210901115729006105924443600031000081836251509011158677461059244436001700000849657517100111501063910592444360000000008496575171001116135162105924443600592000089675251908011157312971041044436006230000894155018080111585550005524444360085800007820450220201115337930045244443600858000072974502202011145053970559644436006920000717430000021111332556805595444360069200007174300000211113325568)
 (.leaf 8338444360000300005824450221001114954578000004443600024000066704302310011156467390000044436000030000556545022100111576228000000444360052800007100370260201115706587092344443600682000072073502702011161438110923444436006050000861337026020111602198403554444360057600008625370260201115897154102064443600627000076594302302011160509991020644436006270000766045022020111588804110206444360057600007317390250201119467247105924443600442000067983302809011193999391059244436005580000702433028090111610291108012444360013400007737550180201115995916074954443600028000082086001602011159360570619044436004670000760837026020111901773306815444360046700007330350270201115601844))
 (.node 1 (.leaf 10592399360046700007391350270201115536482087924443600643000088704752102011191325890879244436006820000883350020020111562546208792444360066400008929500200201115544207087924443600634000081174752109011189864420439744436005280000813641024090111930037304397444360046700007337390250901119637601105923983600558000087264752109011159029291059223736000570000855760016090111543934910592237360014800008684430230911115936503105924443600014000052514502209111158809921059220336000260000505443023081111571746210592000360077100005646350270911119692966105920243600055000057554302309111194553401059200036003340000601045022090111576684610547444360068200008748430230911115618492)
 (.leaf 8387444360059200006194475210801119692924083244443600517000072075002008011156025970874644436004670000594943023080111579231208746444360014400007677625150801115391032105920383600144156581556251508011151287271059203836008700000904062515100111566746610592038360047700006669475210801115418579105920383600486000069204752108011155572911059203836004770000667739025080111583559110592073360046700006499350270801115771929105920733600467000062533502708011160186281059207336004862708681937026080111559637510592073360050500008214475210811115820416105920813600033000071665251908111157505391059208136002260000757050020091111558814810592000360019200006322390250901115779689))))
 (.node 4 (.node 2 (.node 1 (.leaf 10592000360011300007385410240901115617831096694443600283000071873902509011158069560966944436000480000757050020090111587607710175444360014800008263475210901115735354035784443600742000042834502202011135039900487344436004210000474445022021111391117410592444360057700008060450221411115854064105924443600329000070183502714111161930271059244436004670000899457517080111554109710592444360046700009022575170801115889826105924443600467000090095751708011151314121059244436003930000868157517080111581806210592444360046700009002575170811114815948105924443600064000078396001609011160778731059244436000210000851062515090111601580210592444360016100008413500200901115947264)
 (.leaf 10592444360028800008385475210811115814558105924443600779000074552903009011144999621059244436000000000846957517100111394649910592444360005100008700600160801115610514105924443600528000090035251908011160264071059244436006430000898755018080111568538610592444360059200008985600161401114537395105924443600020000071903502702011152142250504644436007790000654435027020111396490005592444360069200007174300000211113325568055914443600692000071743000002111133255680822444436000190000396347521161111536173807902444360000200003304450220701119533514079344443600000000073034502210011153759880000044436000330000689143023020111574927900000444360002100003532430230201115933659))
 (.node 1 (.leaf 9234444360034100006068390250201119973665092344443600766000072473702602011161484440923444436006820000882539025020112006937603554444360056700008876410240201116050936102064443600643000074214302302011159048951059200836006430000746943023090111960452908012444360002400008891625150201115597002061904443600021000089236251502011154225610843844436004670000855937026020111574387906815444360046700007283330280201115139063105923993600505000085343702602011156587600879244436006640000879950020020111872299508792444360066400008978500200201115394166087924443600605000088994502209011151571831059239836004670000716937026090111905772710592398360044200007206390250901115684596)
 (.leaf 10592405360040000007086390250901119351161105923983600032000088776001609011155986221059223736000210000893860016090111521866510592237360002500008877600160901115345707105924443600232000057554302309111157308421059244436000550000505443023081111556002810592024360068200005630370260911115921633105924443600621000076304502214011161323900852944436004160000714343023081111586996506761444360035700003811450220811115465434075104443600617000045164502208011191890330832444436005490000476447521080111591026708324444360046700005685475210801119222675087464443600467000060784752108011158372000874644436001981503783055018080111568305608746444360015700007879600160801119404879)))
 (.node 2 (.node 1 (.leaf 10592189360014400007677625150801118939590105920383600144000076776251508011149758591059203836001440000830362515080111920421110592038360061300008757600160801115726915105920383600334000067554752108011150376971059203836004670000704847521080111533133110592038360048600007048475210801115877312105920383600467000057693502708011194008481059208136004670000568635027080111935919110592081360046700006253350270801115932484105920253600567000071303702608011159387821059207336004670000660735027080111608210110592073360077900008234430230811115701455105920733600549000081594752108111192728521059208136001340000698752519080111544264110592081360042300006231500200911115565645)
 (.leaf 10592000360005500006199390250801115794649105920003600113000084473502708011155258870966944436003220000664039025080111586726109669444360036600006675410240801119213428096694443600283000069753902508011154371391017544436003490000718739025090111547632710387444360027300008568410240901115819570104494443600439000088815251909011160905720593044436002830000561537026021111397476704531444360062700005884475210211114840368070024443600576000046176001612011151108661059244436004130000701835027141111565210610459444360044200007137390251411116194391105924443600442000075743000014111167162040721744436005750000865041024020111549089910592444360032212218074550180801115761786))
 (.node 1 (.leaf 10592444360002500007764575170901119429825105924443600032000077876001609011158393241059244436001760000838652519080111657594710592444360005500008993600160801115832516105924443600025000090016001608011158073941059244436000540000900257517081111600371810587444360044200008927550180801115227542054294443600667000065443502702011163324970790244436000090000295847521071111553614800000444360000000007392450221011115500847000004443600006000061444502202011158177220923444436000000000525145022020111577055309234444360071400007207350270201119898368092344443600682000087783902502011160400060923444436006430000892041024020111991702610592008360063400007844450220201119596866)
 (.leaf 10592444360032200007997430230901119090317105924443600215000086364102402011192633850619044436004130000861939025020111561554510592399360046700008477350270201115501286087924443600643000089944752102011156188841059224536005760000829343023090111564468604397444360048600007259370260901116012423043974443600467000071693702609011158389510439744436003220000733739025090111932551110592398360022100008779550180901115793081105922373600021000089646001609011149267961059223736000210000886460016090111596995410592444360011300007626525190901115735280105920243600013000054084502209011155592681059244436002580000892852519140111635903509603444360035500006182430230711115928656))))))))
 (.node 64 (.node 32 (.node 16 (.node 8 (.node 4 (.node 2 (.node 1 (.leaf 7950444360032200003670475210811116004042067614443600592000042834502208011158550871059239736004771872588447521080111596037910592000360046704776194475210801115881735105920003600247000077245501808011155056860874644436004310000811847521080111591014608746444360014400007772600160801119117009105920383600144000077976251508011147555561059203836001440000790062515080111542657410592038360087000008963625151001115696543105920383600442000072165251908011155383051059203836004770000729062515080111558400610592038360046700006996410240801115747729105920813600467000066773902508011193276141059208136004670000670135027080111572686510592025360046721586786350270801115173260)
 (.leaf 10592073360046709706923350270801115775954105920733600467000074724752108011157380391059207336004420000759850020081111559058810592081360005500006854500200811119409888105920813600689000087634102409111159085071059208136002470000611350020090111584367510592000360046700006205475210811115631793096694443600423000063654102408011157671490966944436004230000611541024080111578200709669444360046700006948410240801115818481096694443600467000072284102409011157693950579144436005920000690141024021111410954310214444360068200007400410240901115969252094284443600423000065473902509011157749311059244436002260000789352519090111553658210592444360000400007762600160901119802690))
 (.node 1 (.leaf 10592444360013400008433575170901115860409105924443600116000078915501808011158646201059244436003490000899550020080111546614910592444360003300009002575170801116200043105924443600322000089875501808011154411971059244436003490000896655018080111605051109356444360054900007332500200801115947496105454443600375000084755501808011154228090543944436006650000654435027020111628920504515444360078500005769350270201113325568079344443600000000028354502207111149060420885844436000000000457745022101111885616500000444360002100004904450221001115695994000004443600891058444084502210111158216530923444436000000000497445022020111589883909234444360000000006737450220201115978864)
 (.leaf 9234444360060500008930475210201116603218092344443600766000086974102402011161343070355444436006340000880939025090111590360710592008360058500007285410240901119263413105923663600322000077533902509011193334810619044436001160000886655018020111562753008438444360046700008577370260201115716723105923993600467000085163502712011153187060879244436005920000878343023020111532078508792444360063400008957450220201115836097087924443600605000083164502209011155236601059224536005280000863641024090111588578110592100360040000007245390250901115461799105920833600349000070863902509011195288641059239836002320000872455018090111602480410592039360002100008993600160901115253033)))
 (.node 2 (.node 1 (.leaf 10592444360001400005173450220911119359552105924443600215000052014102409111160923941059200036000160000517345022090111575597410592024360020700005029410240901115988264105920243600486000050003902509111161133870836044436006820000474837026090111583740710592444360044900007810410241401116038549067614443600467000052384752108011194356231059239736004670000588447521080111593389108746444360014400007650600160801115023211105920123600144000085576001608011149364451059214036001440000767762515080111902598410592038360014400007677625150801114954002105920383600865000090006251509011154021551059203836006130000887662515080111600327410592038360048600007531625150801115408823)
 (.leaf 10592081360046700007182475210801115729324105920813600467000071824752108011155729701059202536004671055597637026080111550420310592073360046700007084430230801115603641105920733600467000063244752108011190709971059208136004230000702850020080111915612110592081360017000006972500200811115996635105920813600366000060714502208111193531221059200036001640000715337026080111577476810592000360044200005339390250801115599255096694443600467000052334102408011156973400966944436004670000711641024080111937304810497444360046700007285410240901119172928098164443600400000073224102409011158094170713244436002480000690141024021111410954310592444360068900007630450221401115336194))
 (.node 1 (.leaf 8080444360074200007253475210901116065776097184443600523000079644502209011161263421059244436005360000806143023080111595422210592444360020700007842550180901116072958105924443600634000078935251909011160431231059244436003840000784452519090111602099710592444360002600007842550180901116012283105924443600000000078155751709011159153681059244436000020000792960016090111592385010592444360001400007836625150901119405042105924443600018000078866251509111193610941059244436000140000803462515091111935840810592444360000700007813600160901116093974105924443600105000086395002008111152944721040844436006130000724455018080111547655806074444360070400008801450220211114802880)
 (.leaf 4329444360078200005958300000201113325568049344443600709000067373000002011133255680472344436007090000629830000020111332556809110444360000000003656450220711119311404000004443600018000036564502210011157725440000044436000160000497445022100111899845609234444360000000004974450221001119280342092344443600007000068474752102011196393390355444436002830000853255018020111998917303554444360062700008600500200201115953918102064443600540000088764102409011197142741059200836006820000691135027020111614553210592366360054000007311350270201116102718061904443600400000071873902502011191620790619044436004670000852337026120111564016006815444360036600008668410241201119181703))))
 (.node 4 (.node 2 (.node 1 (.leaf 6815444360016400008834475210201115621355105923993600467000078513702612011194439220879244436005400000783239025090111877130408792444360057600008122430230901115409773087924443600567000073854302309011153826880879244436005280000793041024090111897788610592083360030700006938370260901119746971105923983600057000073214302309011197519961059239836001000150678943023090111596478210592398360002100286813450220901116472560105920393600134000088785751709011153217401059234536000640000531943023091111582662010592000360014400005455430230911119693453105920003600442000049464102409111155584430953844436004130000596329030140111595915909580444360036100006244475210711115571947)
 (.leaf 9464444360024700005356475210711115404432088464443600257000052764752109111190983240795044436000550000367047521080111906408807950444360046700005980475210801119093100105923973600486000061674502208011156012940874644436001440000787960016080111540240510592000360014400007879600160801118569829105920123600232000085276251508111149233101059214036001440000779762515080111902904810592038360014400007985625150801115185672105920813600467000073204752108011191367391059208136005850000732047521080111928676710592081360046700006669475210801115285659105920813600467000063244752108111190144671059208136002070000697250020081111617071510592081360022100007297450220901115851826))
 (.node 1 (.leaf 10592081360036604806675410240901115265640105920003600450000060154102409011153893291059200036002320000561537026080111589603709669444360046700005841410240801115792564096694443600467000071714102408011157155731017544436004670000700041024080111908406409816444360046700007116410240801119237532098164443600431000071164102408011159379190981644436003340000722639025090111572236710592444360001400007225525190901116001859049934443600848000087634502202011162042010583944436008320000595845022020111619047107948444360082500005747450220901115990886059614443600844000061674502202011161316691059244436000210000845657517121111375690410592444360015100008048525190901115673680)
 (.leaf 10592444360077900008279475210901116155357105920003600283000079105751709011158166711059200036000240000791057517090111965460110592000360000300007910575170901115385938105924443600011000078666251509111156083481059244436000070000788860016091111934542510592444360001000007973600160901115716088105924443600007000080146001608111148842531059244436001000000794862515081111429755710592444360054900009018475210801115992364104084443600621000089675251908011156007771040844436006340000722552519080111943464710592444360070400008944450220801116013570000384443600977000047953702602011137546450353744436008630000582539025020111500732904506444360079000005769350270201113325568)))
 (.node 2 (.node 1 (.leaf 4863444360070900006542300000201113325568055674443600698000071743000002011133255680557744436006920000717430000021111332556805577444360069200007174300000211113325568055744443600692000071743000002111133255680994944436000000000783845022161111574844108768444360000000004827450221011114914694000004443600026000058644502210111189788290000044436001980000449043023101111547236600000444360019800003894430231001118782176000004443600226000041914302310011189457150820044436000080000642645022100111911624408200444360000000006641450221001115760387092344443600000000059584502210011156040060923444436000000000651045022021111926527403554444360060500008763410240201119850237)
 (.leaf 7439444360054000008920410240901115897440102064443600634000088764102409011160885991059200836007040000724233028020111600044010592008360046700006673310290201115636541105923663600467000068653302802011156228060619044436004670000842837026090111567870206190444360046700008514370261001118808930061904443600467000084863702609011156449380843844436004420000848637026090111575966910592444360027300008498370260901119482684105924443600069000075965251909011157601450681544436000690000737055018090111596415910592392360019800007438475210901119586186105923993600293000073023902509011157117840879244436004770000702539025090111909207508792444360023200007885410240901115775965))
 (.node 1 (.leaf 10592245360035700007400410240901115933375105921003600540000085413302809011160587101059210036004000000731739025090111591928610592100360041300007086390250901116227335105923983600215000070004102409011156282021059203936000210000899360016090111472076610592345360041300006364450220911115447500105923453600064000055304302309111194162891059200036000240000578845022091111602509910592000360054900005611310290901115860799079504443600283000044425002009011153571021059239736001570000459747521090111900672510592397360047700005276475210901118946076105920003600307000080375751708111156524281059201236002730000798562515081111913236110592012360018300007985625150811115779415)
 (.leaf 10592140360014400008303625150801115812625105920383600157000079856251508011153535001059203836008700000900062515090111561201510592038360048600007867675130801115226614105920813600592088678454752108111148907761059208136002210000570850020080111583818710592081360062700007137390250901115768682105920813600477000072284102409011152270861059208136001570000611541024080111573365610592081360022100006939450220811115953688105920003600283000054153702609011158650641059200036001980000565333028090111590090509669444360046700007228410240801115971371098164443600467000071714102408011192184370981644436003660000736441024080111533766509890444360070900008317450220901116387107)))))
 (.node 8 (.node 4 (.node 2 (.node 1 (.leaf 8048444360070900005685475210201120026600043034443600782000049904752102011156953421059244436000630000814557517100111513986810592444360000000008444575171001113698786105924443600019000082735751709011152515611059244436001480000823352519090111563924410381444360070400008364550180801115032505104244443600709000081614302309011157410121059244436001760000834955018090111966127910592444360002600008313550180901115900186105920003600055000078455002009011161448641059200036001360000779252519091111947778010592000360002700007765550180911116335018105924443600144000079515501809111163812431059244436000210000790762515081111505901310592444360002100007909600160811116703805)
 (.leaf 10592444360005900007948625150811115847508105924443600423000075445751709011156758800946544436004310000808960016081111522430600406444360096800005825390250201115720646001534443600991000055103102902011155109120557544436006920000717430000021111332556805575444360069200007174300000211113325568055734443600692000071743000002111133255680876844436000160000575643023071111473194608634444360010400004662450220711115700862086344443600026000050784502210111188970250768744436000570000525145022100111559279100000444360000000004662450221001118720813000004443600005000047444502210011155689860000044436001570000523143023100111508384308200444360062700007934450221001119333405))
 (.node 1 (.leaf 8200444360011300006542450221001115902990082004443600000000052934502210011158236470000044436000000000704847521020111590589500000444360000000007430525190201119411027074394443600384000085383902502011195930180743944436005400000879941024020111580316310206444360064300008920410240201116224126105923663600467000067983302809011152548201059236636004670000788433028090111897843410592444360046700007884330280901115792435105924443600207000087644302309011156289061059239236000600000730755018090111590336208792444360036600007086390250901115739902105922453600442000079673902509011155182721059210036005920000711437026090111593353910592199360027300006892370260901116053843)
 (.leaf 10592398360000000007116450220901116050055105923983600069000069244302309011159347911059200036001480000729745022090111620761810592000360011600008868525190901115854275105920853600021000089536001609011148795481059234536002150000603643023090111528813710592345360002000006071450220901115570386105920003600014000061434502209011197442101059200036002930000542141024090111603059610592000360036600004821330280901116075127105920003600450000056782703109011197509570912844436005580000654435027140111587612209806444360016400005251450220711115219932085794443600057003036704752109111192133140860844436002470030442147521090111910353710592397360040000005145430230901115002641)))
 (.node 2 (.node 1 (.leaf 10592397360046700005102475210811119266083105923973600442000066694752108111187852081059201236001830000807862515081111901070110592038360021500008155625150801115702365105920383600486000086966751308111151016181059208136005170000869667513081111535236710592081360059200006954475210811115248106105920813600576000070104752108111158234341059208136006130000743847521090111585704810592081360058500005530430230901114996377105920813600207000057095251909011154555531059208136003660000623150020090111572934510592081360045000005573410240901115524753080754443600423000068354102408111157324830807544436004230000679639025090111591814210592000360022600006276370260901115857291)
 (.leaf 9669444360034100006497370260801115959437098164443600357000071373902508011150581000981644436004310000686243023080111930226009816444360041300006924430230801119241991104274443600293000069753902509011192684071059244436002470000718739025090111580942710552444360033400008834475210901115559011105924443600627000089435002009011146947900887344436006170000607847521090111633969404180444360077900006457475210201116088599047774443600799000065424502202011162495561059244436000620000833255018100111573190610592444360000000008327575171001115747192105464443600057000075475002009011157980831059244436000130000832660016090111561509710592444360070400007824370260711115037739))
 (.node 1 (.leaf 10592444360077900007485290300711115451490105924443600016000083645501809011157122801059200036000720000784452519090111537384210592000360013400009015525190911115814713105924443600601000079105751709011155298220959644436005850000817555018080111637840409503444360052800008131575170801116131077037944443600839000055073702602011146975600863444436001000000432343023161111606943907687444360000000004257450220711115309486076874443600136000039524502207111188021040781644436000250000457745022101111539754700000444360000000005078450221001115876897082004443600000000074964502210011152372630000044436001640000759043023020111945382107439444360062100007753390250201116212497)
 (.leaf 7439444360062700008325410240201119368628074394443600540000087284102402011159700810743944436005580000890541024090111593906710206444360052800007986450220201115760894105920083600799000077384302308011159201560681444436006010000657433028090111599799010592444360058500006713350270901119677671105923923600349000069774302309011157730111059239236004770000675841024090111585441710592413360028300007590430230901115239274105922453600183000086984302309011192295101059210036003340000692539025090111572640210592199360022100006381330280901115904118105920923600016000072354502209011155691611059200036005920000703043023090111597093610592049360017000007000410240901116050565))))
 (.node 4 (.node 2 (.node 1 (.leaf 10592085360002100008813600160901118659515105920593600021000088646001609011156314021059200036001830000511841024090111919003810592000360028300005326390250801115921613105920003600423000055243902508111150405750912844436007820000720243023141111937815507574444360054900007074350270201116001075085794443600192000045974752109111154742231059239736003570000498445022091111901754210592397360023200008191475210911114576572095054443600442000051024752109111190660071059200036002470000815562515090111594404310592140360044200008890650140901115700963105926183600865000089366501409011152094511059203836004670000868857517090111532667210592081360047700008845650140811114992411)
 (.leaf 10592081360046700005305500200811115962626105920813600576000056144302309011193221231059208136006130000706041024090111599092610592081360058532476871390250911115151623105920813600283000050544302309111189211741059208136000180000429352519081111925569410592081360010400004006550180911115349328105920813600293000040065501808111160579711059208136003070000415252519080111579592410592081360030700004293525190801115262768105920813600322000055465251909011152131431059200036004230000671143023090111607071409816444360036600006758410240811115421843098164443600467000055103102908011159930621031344436004670000697539025080111565741710379444360024700006925390250801119487296))
 (.node 1 (.leaf 10379444360021500317228410240901116002707105924443600176000074214302309011193653971059244436002730000744341024090111578233308048444360050500007297450220901119635496045254443600807000070285002002011160900551052844436000850000725757517080111585380710592444360001400008032550181001115869957104874443600170000074384752109011152521251059244436001040000776457517090111574423310592000360000900008326600160901115763636103914443600576000077586501409011192420971059244436000150000781557517090111581141710592000360019800006534475210911115289369105924443600024000079736001609111155211741059244436000280000797165014091111610400110592444360068600007950575170901115073013)
 (.leaf 10592444360054900008994575170901115823637105920003600686000082925751708011159318300885344436006430000782955018080111692889304145444360076600005507370260201115751670061854443600592000080083502702011164354550045544436009460000522145022020111508311204486444360072000005958300000201113325568087014443600017000057564302316111150320910833444436000190000395245022161111526077207816444360000300003304450220711115317303078164443600006000047444502207111157183830820044436000000000490445022100111568758400000444360000600006025450221001115388700000004443600000000055994752102111192204550743944436000210000754545022020111581821810206444360059200008986450220201119838740)))
 (.node 2 (.node 1 (.leaf 10206444360055800007650410240801115855743105920083600782000077694502208011192699471059236636007660000740041024090111920898510592366360062300006629350270901119086543105924443600334000068624302309011156755540681444436006820000722639025090111600320310592000360066900008607410240901119345664105920003600322000072213902509011193829261059240936001480000754545022090111586649210592409360006900007452550180901116208114105924133600100000078945251909011158647201059210036002570000692539025090111609527710592199360024700006594310290901116290291105921993600322000066752903009011196958881059209036000180000732143023090111585061010592090360019800007171410240901115866755)
 (.leaf 10592090360032226706975390250901115393801105923113600247000072063902509011158527371059204936000600000709043023090111540203410592059360010400008868525190901115758677105920593600057000077915501809011154569351059234536004420000500039025080111576843910592304360036600004921390250811119267760105920003600643000053194302309011158154080949244436007820000688445022141111924597006382444360085500009017450220211115917211085794443600025000048474752107111154804700909644436000550000488152519091111588642110592397360014400008798575170911115840226095054443600221000082445501809111158659040950544436001830000805860016091111587496309505444360023200008418600160901116132020))
 (.node 1 (.leaf 10592140360080700008845650140901115477159105920383600853000089996501409011156098201059203836004670000870060016090111581868810592038360046700008700600160901115303644105920813600505000056725751709111154504870807544436003570000675547521090111553453708341444360059213805686350270901119113601083414443600442000057373302809011158963700984244436004670000717445022080111565376409842444360046700006544350270801115330336105924443600442000072974502208011164108281031344436001040000682937026080111550698910592444360028300007302390250901115730365105924443600601000088984752109011158374380887344436006890000654245022090111576763104385444360081900006813450220201115817614)
 (.leaf 4568444360083200007134475210201116177024063924443600475000074115251902111162560160567144436005040000698752519021111596421710592444360000000006390575170801115269825104524443600007000079315751709011156734511048744436000080000745357517090111922749810592000360006900008348575170901115567270105924443600024000073545251907111158590211059244436000100000771157517090111617575510592444360002100007819525190911116143033105920213600766000065014302309111154408431059200036002930000902850020090111576933510592444360000900007886625150911119351156105924443600247000078354302310111161327831059244436007770000901245022090111691253310592444360042300007791550180901115346273))))))
 (.node 16 (.node 8 (.node 4 (.node 2 (.node 1 (.leaf 10592000360047700008212525190901116138235105920003600366000076895002008111194292030889944436004860000739347521080111607526009274444360041000007829550180801116337038050734443600592000056863502702011172829080635044436006010000837737026020111614877404481444360079000005769350270201113325568048534443600710000065423000002011133255680557044436006920000717430000020111332556808035444360001401564257450220711115018803081824443600157000039524502207111154733980820044436000060000761345022101111560325208200444360002505945576450221001115349129000004443600000000032984752102011159022410743944436000550000768543023020111614307510206444360054000007322410240801119458808)
 (.leaf 10206444360036600007495410240801119346703105920083600357000074434102408011161119291059200836004860271752643023080111938976210592366360059200007714430230801115925318068144443600682000074444302308011157814500681444436007930000784445022090111609716206814444360070400007602450220901116113781105920003600576000073523902509011156561141059235136000210271822960016090111956256010592351360002100008291600160901115840968105922693600018000077705751709011156731591059210036001160381735452519090111601947910592100360032200006675290300901115819979105922103600467069962232503209011159222921059206736004670156675029030090111589117810592059360046700007206390250901115226809))
 (.node 1 (.leaf 10592059360042300007122350270901115386170105920593600467000065943102909011190195111059234536001340000720639025090111589062110592304360021500005488410240801119703729105923043600467000053863902508111161116751059230436004130000524139025081111598982207420444360048600008836450220201115242182061054443600852000090004502202111157766371059244436002320000890567513161111581256110592576360046700008982675130901115384909105920383600467000086496001609111154991041059261836004670000898657517091111895277810592081360046700009001600160911115726389105920813600567000089685002009111151619771059208136006560000582837026091111922843610592081360044200007202430230911115990957)
 (.leaf 10592081360018300005287525190901115956634105920813600134000045594102409111158395181059208136000210000424437026091111599023810592081360014400008020450220911115589534080754443600144000049844502209111151197460807544436001570000799743023091111587154210592000360040000005479350270801115677667098424443600467000067894302308011162655241059244436002570000724539025080111940743810592444360028300007435390250901119138589105924443600467000090415751709111149055321059244436001830000903662515121111553151010592444360034100009031575170901115731604105924443600322000089955501809011156168030971144436002260000795057517090111601814308873444360070900006813450220901115766874)))
 (.node 2 (.node 1 (.leaf 4279444360083700006813450220201115468112057584443600600000069393000002111133255681059244436000210000898657517081111406016210592444360006700008545575170911115310037105924443600000000079935751709111150364941059244436000080000639057517090111566254810592040360001700007815575170901115979225105920003600136000078155751707111161324861059215036000070000645157517071111931862410592000360061700006238430230711115477998105920003600000000077925251909111194022291059202136005580000901347521091111506801110592000360029300009024500200911115979428105920003600100000090295251909111159350551059200036000330000901552519091111574996210592444360006400009026550180911115756258)
 (.leaf 10592444360003300009021550180911115733960105924443600033000066835501809111158114511059244436000000000653057517091111956880910592444360003300008092625150901116028224105924443600528000090305501809111157599921059244436003620000875360016091111611552710592444360068200008967525191011118052145105924443600682000090335251910111161827411059244436008820000902347521090111540822810592057360002700007472475210811116036691055274443600431000068914302302011160069630902344436003910000739347521080111613090308856444360052500006939450220911116045806105924443600584000069643102909111161289440476444436006170000614243023020111628679104861444360070400007010475210201115818309))
 (.node 1 (.leaf 656444360093500006032650140201116018377089464443600779000062173502714011155947560501344436007790000654435027020111650567005566444360069200007174300000211113325568055654443600692000071743000002011133255680556044436006920000717430000020111332556808182444360062300004827450221611115681119081824443600000000049844502207111148124070820044436001830000474445022071111608914508200444360065600005648450221001115586534082004443600528130769974502210111190520700000044436000130000328745022071111458221907439444360002500007011430230201119761221102064443600664000089934502209011163417891020644436003220000740041024080111554982010206444360028300007364410240801119297237)
 (.leaf 10206444360028300007364410240801116093275068144443600283000074954102408011150511031059240936000210000773755018090111551696410592351360002100008384575170901115839601105923513600024000079496001609011161426251059226936000330157827357517090111618243610592269360002800008153600160901119599264105921003600104000076235501809011161409981059221036004000596692131029090111598601710592337360046702726884290300901115738353105920903600467000067502903009011159455911059229036000550000744443023090111597265610592311360030705967337390250901115488662105920593600467000072843902509011157878271059205936004420000691633028090111571398210592345360033420946975390250901116195451))))
 (.node 4 (.node 2 (.node 1 (.leaf 10592304360001900007116450220801115686698105923043600357000071373902508111159125341059230436004420000664039025090111581341410469444360045000006759370260901119198728105924443600467000065743302814011149220021051544436001980000761765014161111536069209096444360013400006592500201611115809750090964443600008000038114502207111163487730909644436000020000442147521071111946787408692444360000500004421475211011119300668105923973600028000084765251909111157014690950544436003220000895360016091111608575510592000360043100008739575170911116042384105925763600689000089826751309111155143471059257636007790000900062515091111607703010592038360083500008845650140911115306180)
 (.leaf 10592081360046700009035575170911115871653105920813600643000087804102409111152616151059208136005170000609341024091111559908710592081360046700006053410240911118918172105920813600384000060544302309011158041631059208136001570000849055018091111543564610592081360002200004462390250911115267761105920813600176000041914302309011158595280807544436002150000444250020090111572360608075444360019200005276475210911115349774080754443600060000060784752108011153013921020344436003340000683541024080111926022410592444360034100007498430230801119530701105924443600257000074654102408011164052251048444436002570000735845022090111579064709711444360041300008801450220901119863683))
 (.node 1 (.leaf 9485444360058500007376475210901119686988088734443600623000066414502209011195857450701844436007770000717445022020111965769104418444360084400006542450220201115935853051194443600671000069974502202011161647350575744436006000000693930000021111332556810592444360006100008986575170911115445674105924443600021000090095751709111158948801059244436000190000902257517091111468489010592444360013600006202500200901115150369105924443600015000063255501807111157481661059244436002070000778957517071111912380810592444360001900007711575170711116163518105921503600136000062995501807111155159941059215036006210000630445022071111902176710592000360001300007789575170711115939559)
 (.leaf 10592021360000600007840575170711115264017105924443600357000090145002010111192462881059244436002070000902450020091111893912210592444360036600009012450220911115750194105924443600247000090285002009111189337871059244436002210000902850020091111900040710592444360014400009009525190911119189513105924443600116000090035251909111155155281059244436000640000788860016090111581306210592444360068200009015525190901115599634105924443600513000089675251910111164663701059244436006010000900850020091111496511510592057360002100008198475210911115766571105920573600423000072534752108011160706410512144436006011590711547521020111621377405582444360045500007029450220201116312420)))
 (.node 2 (.node 1 (.leaf 5372444360061700007057450220201116138767028754443600898000065424502202011145325171059244436006850000707435027140111630056605172444360066900006066330280201115941050046814443600779000060323502702011157881340442844436007790000568635027020111586008005549444360069200007174300000211113325568087064443600824000047444502216111155634170870644436000140000410945022161111875880508291444360000000003489450220711118629343082004443600000000046624502207111153191700820044436005760000681345022071111588717008200444360042300006298450220711115837949082004443600015027442694752110111156889190000044436000000000357652519100111539829600000444360002120014744450221001115844062)
 (.leaf 7439444360001500003656450220201120214897074394443600020000049744502202011204579771020644436002830000756941024080111896222406814444360058500007526430230801119650576068144443600807000074214302308011158446280681444436008070000893943023080111592256410592444360021500007498430230901114864043105923513600057000074535751709011162263331059243136003340000741745022090111939165610592431360040000008605390250901115880702105922103600431000072284102412011154807121059229036001700000726539025090111574608510592059360046700007041330280901115805085105920593600104000073854302309011156870191059230436004670384679639025080111615920607528444360046700006938370260901116348925))
 (.node 1 (.leaf 7528444360046700007133370260901115785834105924443600467000067853502709011190966640950544436002930000898657517091111880830210592000360029300008951625150911119102986105920003600477000088315501809111158955411059201236008240000898365014091111610979310592140360087000008963625150911115712132105920383600467000089545751709111157696661059208136006130000598239025091111910161610592081360040000006015410240911119093015105920813600148000057595002009011158808861059208136003570000473743023090111607567408075444360032200004408450220911115399941080754443600283000037787001209111190283470807544436002830000481643023091111923525308075444360060100007542390250911119154277)
 (.leaf 10203444360014800006519430230811119277637102034443600232000074984302308011160978801059244436002320000901450020080111569915109536444360028500007616430230911116062992105924443600406000087015002009111162623091047944436003660000851143023090111586272510484444360044200007385430230901119467842097114443600592000084384502209011194558830701844436006390000723545022090111539348410592444360002100008965575170911115843643105924443600026000089865751709111150486031059244436000180000603957517071111525792410592040360018300007656525190711119490681105920403600017000077365751707111157228621059244436000000000629457517071111922466510592000360000300006323575170711115641056)))))
 (.node 8 (.node 4 (.node 2 (.node 1 (.leaf 10592150360030700006484450220711115202091105920213600055000078445251907111149574181059244436000570000801457517101111508727510592444360006400009020525191011115142103105924443600019000090035501809111158573321059244436000180000898657517071111565400610592444360000800006611575170711115856391105924443600006000066316001609111159568361059244436000240000647857517090111981236710592444360030700008941550180901116432646105924443600601000089135251909011160442281059244436007190000892643023090111598834810592444360055400009033525190911116113146105924443600601000090174502209011176998191059244436007790000901245022091111591257610592444360061300009008500200911115122287)
 (.leaf 10592057360042300007663475210811115823005049734443600617000070294502202011162994850694244436004500000782030000020111642400110388444360082400007074350271401116123123045204443600824000061113502702011164780080483544436006910000585935027020111581678905531444360069200007174300000201113325568055144443600692000071743000002011133255680928744436003410000410945022161111904073208107444360005700004257450220711118823246082004443600867000051734502207111157031300820044436009530000564845022071111506701407439444360001500004744450220711115057913074394443600006000058654502210111155178060743944436000250000408045022021111639968507439444360001800005221450220201116380261))
 (.node 1 (.leaf 10206444360063400009041575170901116160827102064443600060000089425251908011149907820681444436001130000757050020040111571700106814444360080700008981430230901115612217105926263600807000089814302309011193748591059244436008070000898143023090111594667410592444360011600007781500200901114959165105924443600025000073545251909011189805521059235136001640000760147521090111533483410592337360044200007438475210901114935566105922103600467000085233702612011152129781059233736003840601674631029090111608662510592337360013400007344410240901116048214105920593600018000068844502209011161030021059230436000020000699745022080111934343010592169360044200007137390250801115612950)
 (.leaf 10592169360047703857099370260901115989306075284443600467080566853702609011158901690921444436002150000629767513161111577256108692444360000000004109450220711119920281084014443600000000046624502207111157950940869244436000000000466245022071111930268708692444360057600008555500200711119533676095054443600334000088665501807111152649560950544436003340000894155018091111568577810592081360077900008984625150911114870980105920813600477000089405751709111160433451059208136000260000575950020091111570182910592081360011300008511430230911116201282105920813600357000079534752109111190525370807544436006824008473655018090111896221108075444360034900004740675130901115688798)))
 (.node 2 (.node 1 (.leaf 8670444360033400005233410240801115862403086704443600283000060123902508011193961860807544436005400000591439025090111941540708075444360074200007646390250901115645051080754443600164000085845501808111162590361059244436005920000850231029090111716442110592444360025500008181430230911116125764095204443600558000087814502209011162820330948544436004860000699745022090111935392008873444360063400006426450221001116212153070184443600682000071744502209011190848460444244436008190000642645022020111982502104405444360079900006917500200201116821935089264443600633000068344752114011164849631059244436000600000901657517091111509677510592000360003300009009575170911115087083)
 (.leaf 10592000360027300009002500200711116146849105920003600384000078935251907111193274631059244436004230000782147521071111909342010592129360021500006394525190711118922179105921293600144000063575501807111190878271059200036000110000641757517071111544969210592150360061700006426450220711115971878105924443600232000065114752107111188726921059202136003660000648445022071111500807610592021360034100006533450220711115531618105924443600207000080916001607111153792821059244436004860000892041024101111583030710592444360045000008981430231011119170336105924443600558000089204102410111159128491059244436002830000787145022071111554842110592444360002000007993575170711119227256))
 (.node 1 (.leaf 10592444360084900009008500200911115496115105920573600183000077346001609111149983010842244436002830000800750020081111994774207683444360057602757011430230201115803408057434443600669000068523502702011145767890983444436008240000699037026140111563376206725444360080700005479350270201120154675048804443600782000058593502702011207325650501244436008420000700035027020111551650205129444360072300006997300000201113325568055394443600692000071743000002011133255680554444436006920000717430000021111332556805543444360069200007174300000211113325568055414443600692000071743000002111133255680554044436006920000717430000021111332556808107444360000200003139450221611114737791)
 (.leaf 8200444360057600004109450220711119162554082004443600923000049844502207111192213220820044436009400000540845022071111595953908200444360085800005564450220711116112394082004443600013000038114502207111153540780743944436000090000425745022071111913421007439444360010402765949430230811119071820074394443600006000054404502202111155891011020644436007790000900352519080111495839409796444360047700008799500200801115134876068144443600116000080515501804111159308750681444436007710000823745022080111594656306814444360080700008939430230801115342658105924443600232000088344752109011148397941059233736004670000887245022090111490100710592337360046700008820430230901115734689))))
 (.node 4 (.node 2 (.node 1 (.leaf 10592311360044200007099370260901116072222105923113600334000070183502709011158010251059231136003410000708639025090111581988110592246360036600007099370260901118994115105922423600007000071164502208011156731331059228436000080000693945022080111558923610592284360057602766544350270901116037910105920873600467000068923702609011156163241059244436005170602883645022090111578966809422444360021500006522650141611115408991086454443600006000040964752107111189737620840144436000000000440845022071111532268509505444360050500008588475210711115679862095054443600423000088795501809111156995400950544436003340000867155018091111457005010592000360033400008894550180911116332103)
 (.leaf 10592444360034900008893575170911115128514105924443600477000089405751709111159099331059208136004670000891057517091111532983510592444360046700008926430230911115620573105920813600176000063294752109111151955701059208136005580000886655018091111517484510592081360018300008678475210911114595389105920813600605000057465751709111147722961059208136005670000527357517091111875355710592285360036600004789625150901115644189080754443600334000053636251509111157456500807544436004230000365645022090111618404508670444360036600006365410240801119379795088794443600450000080204502208011198183801059244436005920000842431029090111632789010529444360032500007469430230911116063257))
 (.node 1 (.leaf 9060444360033400006789430230901116074346095204443600639000071133902509011164560920827944436005760000588447521090111630926809711444360050500005958450220901116382771097114443600576000069394502209011195744870421144436005920000654245022100111960259104992444360065600007116450220901116144126045104443600837000064264502202011163468501059244436000210000898657517071111574659910592444360002100009009575170711114853574105920003600226000090136501407111190970181059212936006340000642350020071111494143710592000360002100007765550180711114915406105924443600273000066314752107111150124141059244436000330000658555018071111502866110592444360036600007949600160711116204443)
 (.leaf 10592444360066400007583390251011115313590105924443600714000073523502710111150291191059244436001130000658555018071111570983510592444360001500006611575170711115945197105924443600134000064195501807111156456261059244436002150000635755018071111534381310592444360060100008981430230711115783065105924443600605000065625501809111154368611059244436001570000661157517091111582295810592444360002500006326525190911119186426105924443600605000054773702608111153915470842244436005490000759652519081111591283106049444360046700006835410240201115947037043834443600799000057693502702011157897590466444436008280000644635027020111623633804395444360077900005586350270201114592904)))
 (.node 2 (.node 1 (.leaf 8079444360077400009012300000201113325568081014443600771000090123000002011133255680809744436007740000901230000020111332556805528444360069200007174300000201113325568055344443600692000071743000002111133255680552944436006920000717430000021111332556807923444360006400003811450220711115006557082004443600055000047974102407111148091180743944436000060000313945022071111514405407439444360005700005221450220211115555340102064443600617000090156001604011191643261020644436006130000889945022040111907056110206444360061700008987475210801115783516102064443600837000090366001608011188501380979644436008250000902257517080111483865706814444360060100008944450220411115866057)
 (.leaf 6814444360080700008971430230901115330586045614443600686000089444502209011160815541059244436000260000876252519090111462176106008444360018300008881525190901118623076105923373600341000088344752112011149242841059233736004670603870852519090111489012410592337360045000007627500200901116183104105923373600467027774434102409011194487461059224636001160000755243023090111515538310592284360006900007030430230801116193357105922843600477000065963702609011156141691059208736004770000639237026090111543453808401444360002100004121525190711114996590105920003600000000047444502207111159696711059200036001640000519647521071111612745509505444360046700008849525190711115876849))
 (.node 1 (.leaf 9505444360033400008866550180911114552696105924443600334000089275501809111151664811059260236005280000893860016091111558206110592444360046700009038575170911115348145105920813600334000089864502209111148553911059208136003660000895457517091111607414610592000360046700008354500200911114356466105920813600617000055506251509111147105891059228536004130000509157517091111487201008479444360023219563479430230901115043974088794443600144000081336001608011160120850832644436004670000727139025090111585547308279444360059200007147430230901115816918018884443600601000069974502209011196273370960444436006230000713447521090111616837710592444360006400009021600160711114654642)
 (.leaf 10592444360034100009045675130711115825559105920003600334000090386751307111155704441059200036005670000903770012071111947597510592000360028300007891550180711116047343105921293600183000077925251907111152899681059244436001130000784255018071111588870810592444360001600007889575170711115374693105924443600016000079315751707111153306621059244436001700000674862515071111569914410592444360017600007974575170711115318739105924443600221000063984752107111153035781059244436003570000771747521071111509816410592444360064300008962430231011119529469105924443600896000090014752109111192231631059244436000550000668260016091111526458810592000360055800006113500200911115108574)))))))
 (.node 32 (.node 16 (.node 8 (.node 4 (.node 2 (.node 1 (.leaf 10592171360068200006209430230811115468677105921713600517000074115251908011154610680918244436003670000683541024080111621898705676444360047700005737330280201116329941080814443600774000090123000002011133255680793544436000000000313945022071111508985708200444360048600004257450220711115474337067934443600016000065094502207111156756371020644436003660000741152519041111539278909796444360057600008853450220411114968958097964443600837000090276001608011193200710979644436008350000903660016080111477480609796444360063914018528450220801119011739068144443600807000089124302309011150618580456144436002930000701143023090111528075910592444360010400007976500200901115740600)
 (.leaf 10592310360020700008548430230901118399027105923103600048000088155002009011151478890600844436001040000894252519090111533623110592337360046700008942525190901114548547105923373600467003988685251909011146682420562544436002730606726539025090111527930610592337360006000007659430230901119256409105922463600247027974214302309011156419431059224236001760000686243023090111624456210592284360062300005986330280901115412225105924443600848000090195002014011157629390950544436007040000549847521071111951492709505444360061700008084350270711116344502095054443600605000083043302807111164245230950544436005170000691135027091111529086909505444360045002796724390250911116007809))
 (.node 1 (.leaf 9505444360060500007523450220911115860196095054443600349000088795501809111189752831059244436003340000891155018091111526749510592444360046700009041575170911115479802105924443600467000090315751709111161383771059244436003840000903157517091111915877810592444360038400009038575170911115381628105920003600467000064545251909111145060061059208136003841676535647521091111556910710592081360047700005503575170911114758792084794443600283000048175501809111187350100847944436003410497313945022090111887621910592000360043100005744410240801119201118105920003600384000059344102408011161104101000044436001860000868857517080111635020910592444360043100008683410240801115823125)
 (.leaf 1888444360070400006984475210901119662301018884443600617000065424502209011157879700421144436005920000657941024100111612401404211444360061700006939450221001119488753060014443600819000058844752102011150812941059244436005920000905270012071111562816210592444360050500009049700120711115211193105920003600183000081096251507111158735671059200036003840000803560016071111575157110592000360005500007992600160711115636572105924443600100000079726251507111150096841059244436000080000803457517071111566378710592444360001600007974575170711119151127105924443600057000079736001607111149139941059244436002260000665760016071111919339210592444360071400007263350271011114898131)))
 (.node 2 (.node 1 (.leaf 10592444360071400007311350271011119277676105920003600682000075944102407111150316251059244436001440000641955018071111941162510592444360001900008924600160811115072827105920003600423000061975751708111193378401059244436006690000595247521081111600437710592171360061300006395500200811115199097105921713600664000070475251908011161620600830844436007092245693945022090111596266909871444360055300007523450220911115893612015564443600946000067114302302011142002550481544436007790000621735027020111611613007056444360078400007281350270201116271232080624443600774000090123000002011133255680550144436006920000717430000020111332556805510444360069200007174300000211113325568)
 (.leaf 5511444360069200007174300000201113325568086474443600198000043234302316111163286980922944436005280000533845022161111846036009036444360000200005251450221611119575462082004443600019000036564502207111191426840820044436003570000556445022071111599803108460444360036600008438450220711116232051084604443600293000086654502207111196030880820044436000260000749645022071111604070406793444360000000006776450220711119032705067934443600000090834894502207111160706240679344436000180000365645022071111588342507439444360038400004651430230411116239329074394443600015000064264502204111156918341020644436001700000702850020041111498227210206444360057600008931450220411116103822))
 (.node 1 (.leaf 10592227360057600008781450220411114904024045614443600477000070675002009011150139381059216436003340000702945022090111897105210592444360013400008020450220901114306849060084443600033000089145002009011141419121059233736001920000891352519090111866621610592337360046700008957500201401115791177105923373600467000084473502709011163071641059233736004232117716937026090111591326405625444360013410817228410240901114678291105922463600057000074214302309011153747691059228436004770998640443023090111607126010124444360051700008816475210901116168509099784443600176000071576001616111153209680972344436000040000527647521071111514894110592000360000000004109450220711115990481)
 (.leaf 9430444360064300005858410240711114953864095054443600505000070253902509111160957851059200036002570391675841024091111513331910592012360017000006426450221011114914655105920123600334000088945501809111158423621059244436003340000891155018091111898599610592444360033400008866550180911115085232105924443600334000090375501809111161069491059244436004500000904260016091111524582310592444360043100009036600160911116218924105920003600779000060354102409111146955531059200036006170000630247521091111879635210592000360054900005168550180911115380280086854443600613000049625251909111189170090868544436004130000465143023091111897313608479444360030700005008475210911119008886))))
 (.node 4 (.node 2 (.node 1 (.leaf 8479444360038400004847475210911114622260084794443600334000036614302308011147489781059200036004500000499741024080111553277110592444360054000008447350270801115859118018884443600601000065424502209011159183600499244436006050000692443023090111573354305721444360060000006939300000211113325568105924443600313000090035251907111167580381059244436007140000900045022161111954373810592444360032200009045675130711119490906105924443600021000066835751707111151119041059244436005170000812670012071111927104110592444360059200008165700120711115967272105924443600104000081266251507111158262991059244436000240000653057517071111929838710592444360019800007992550180711116096088)
 (.leaf 10592444360022100008053550180711116030572105924443600221000080745501807111160945801059244436003220000801150020071111907505410592444360059200007513390250711118848815105924443600656000075833902510111157959951059244436007140000735235027101111590826310592000360062100007795450220711115665827105924443600186000065344752107111190924291059244436001980000650752519071111501193610592444360022100009020525190911118945559105924443600048000090216001609111149778901059244436000250000887857517091111583311010592444360023200006231500200811115126994105921713600528000059904102408111195994731059217136004420000578037026081111535301209875444360062700006202500200911119231461))
 (.node 1 (.leaf 9540444360047400007376475210911116114248005014443600957000061674502202011140501710548644436006920000717430000020111332556809036444360000900006509450221611115776810075094443600322000046624502207111157194660846044436004310000572445022161111504951908460444360005700007731450220711114902808067934443600000000055654502207111148938820679344436000030000451645022071111612601810206444360023200004875430230411115502154032424443600771000089765501804111158745690324244436005760000887245022041111541876010592227360035700007574450220801115709340105921643600431298860323502709011150332631059244436002830000764639025090111409893810592310360002501668868525190901115076270)
 (.leaf 10592337360002500008913525190901114257294105923373600293125689836501414011144018601059233736003841000894057517140111544653510592246360029300007302390250901115698572105922463600639050070373502709011160890341059224236000001000664145022090111617689810592284360000800006997450220901116296515105922843600505000068293702609011164200181059228436006050000601239025090111643486710592284360046700006062370260901116356790093814443600467000062763702609011155955091059244436002430000883743023141111612406910592000360032200005196475210711115878627105920003600517028168745251907111149384941059201236003340000716652519071111477605610592012360033400008879550180711116147050)))
 (.node 2 (.node 1 (.leaf 10592444360046700009045675130911115886543105924443600400000090516751309111162188321059244436004230000905167513091111608509710592444360054900007873500200911115231672105924443600558000063945251909111190805401059244436004860000639155018091111884209210592000360051700006300525190911118875426105924163600627387461434502209111146729110868544436005850000498445022091111902326708479444360035700003977500200911114765536105920003600423000040804502208011156566711034244436000480000863757517080111557192709101444360056700007590430230911115073906018884443600790000062984502202011160564270404544436008320000408045022020111582236105699444360060100006939300000201113325568)
 (.leaf 5683444360060000006939300000201113325568105924443600319000082074502207111149803261059244436005950000598239025071111574721110592444360055200007191390250711115798076105924443600463000083003902507111159134081059244436001760000898755018071111517300510592444360002500008986575170711115979782105924443600021000089865751707111161303701059244436000210000897557517071111596643210592444360017000009026625150711116174824105924443600592000090527001207111151511081059244436005920000810870012071111614686610592444360010000009026625150711115449452105924443600157000079325501807111149158561059244436000150000678457517071111515788810592444360002100006725575170711115828748))
 (.node 1 (.leaf 10592444360048600008075675130711119240236105924443600592000080907001207111160896001059244436001920000653155018071111539828810592444360019200007949500200711114980599105924443600136000063984752107111148363371059244436003490000901950020091111477284610592444360018300008868525190711119197452105924443600450000060364302307111193007261059244436003220000623843023081111601528810592171360054000007658475210811119192500105921713600307000076845251909111191667331059217136006051083630247521091111528298710592171360068600005930450220911115175589049804443600790004173104752102011167379880897044436004810000707547521090111643018009021444360061300008462430230811115183590)
 (.leaf 4577444360059200006818500200211116414251052144443600467000050473102902011133255680515444436007650000775030000020111332556805494444360069200007174300000201113325568089234443600221000048274502216111162500250903644436000280000739245022161111459087008070444360086200006776450221611115693653064494443600742000042574502207111153138800849644436004770000547745022161111616223506793444360002000006509450220711114873572067934443600134000062984502204111157903480679344436006690000695447521041111583150203242444360070900007792525190411118952410032424443600576000089574502204111195415890324244436006640000728541024080111531043910592164360036600427125410240901116021574)))))
 (.node 8 (.node 4 (.node 2 (.node 1 (.leaf 10592164360046700006111350270901115644713105923443600413039566853702609011186131091059234436002320000678943023090111833872110592337360017000008973625151401115745164105923373600232061190136501414011186958571059233736003411976786662515140111451051210592337360046718657226390250901115005306105923373600528061172453902509011149332211059233736007090000720639025090111914341210592246360085300006892370260901119092580105922463600431108773444102409011194828011059228436003220000672439025090112027590610592284360046702826685370260901116671974096384443600477028265473902509011160615290858344436005281746609039025090111553296510592444360025000008929500201411115938898)
 (.leaf 10592000360003200005741550181611118907285105920003600634000065925002007111148096261059201236001130000806250020071111487217110592012360033400008847550180711115877453105924443600334000087245501807111189120451059244436003340000903455018091111513170210592444360068200006093410240911114604785105924163600686000063634752109111154982751059241636005760000630052519091111581193710592416360054000006086550180911115790348105924163600467000059645751709111157691630886344436002830000476447521091111914291308479444360057600005069550180911115803050105920003600384000045724302308011152237020906644436000220000887662515090111483696209101444360060100007953475210911119153793))
 (.node 1 (.leaf 1888444360062300006220450220901116032880018884443600576000068264502209011194811930573044436006270000654245022090111564203608632444360077700005865450220801116279301063764443600198000062983000002011133255680940044436002930000664130000140111332556805715444360060000006939300000201113325568057064443600600000069393000002011133255681059244436000000000900645022071111405681910592444360040100008134450220711115418791105924443600689016760503902507111150769211059200036000270000900257517071111522981710592444360002100009031575170711115920966105924443600232000090466501407111148014681059244436004130000904867513071111883796110592444360059200009052700120711116306678)
 (.leaf 10592444360059200008165700120711115696843105924443600055000080325501807111154335791059244436000720000805457517071111551450410592444360006000008054575170711116084014105924443600033000079296001607111161727491059244436000240000647857517071111595618910592444360003300006748575170711115465438105924443600186000080115002007111152872111059244436002470000799050020071111501677710592444360068900007402370261011115849488105924443600334108764545251907111147334901059244436001360000607145022071111570770410592444360022600006202410240711118993423105920003600366000089285251908111159085571059217136006210000779350020091111504148110592171360069800005941410240911119393602)))
 (.node 2 (.node 1 (.leaf 8293444360077700007075475210901116122372063654443600458000073104752102011162106131047644436005160000755045022121111590480508416444360068600007500370260811116885151043494443600704000059513702602011161289290450444436006980000580533028020111595587108802444360046700008466330280201116201018105924443600771000090173000014011133255680546144436006920000717430000020111332556808445444360010000004257450221611115789188088014443600183000077314502216111145846440854844436006230000395245022161111541479306456444360077700004476550181611115752366084604443600033000044084502207111148531180846044436004670000848845022071111592612806793444360001500007135450220711115038031)
 (.leaf 3296444360017600004516450220711115722026105924443600656000077155002004111193660660324244436006980000714743023090111494322510592444360064300006032410240901119189479105922393600467004365043102909011193655551059236436004670000649737026090111599563210592364360046700007089350270901118649408105920003600057000088815251909011140974501059233736001040614898560016140111540560310592337360027300009033700121401114648830105923373600283091589897001214011185413691059233736003490168744443023140111612777910592337360038400007228410241401115447346105924443600839050568293702609011154023871059226536004670000692539025090111565561510592265360035711807210430230901115048842))
 (.node 1 (.leaf 9419444360061700005029500200711114555988105920123600334000086565251907111145969091059201236004130000765555018071111576945610592444360042300008847550180711114833932105924443600334000087795501807111147432781059244436004230000886460016071111917530110592444360042300008877600160711116010218105924443600341000080545751709111151311011059244436005490000645845022091111488528708863444360059200005232525190911118947433099524443600350000088766251509111160765290943844436004000000828350020091111936088909101444360024700008037575170911115783414061914443600567000070265501809111159908550508544436002730000428330000020111332556805384444360019800004283300000201113325568)
 (.leaf 10592444360071400006209430230711115961856105924443600698000063044502207111159698391059244436007140000653450020071111554281010592000360034900006564500200711119005803105924443600021000090385751707111145109141059244436005050000814870012071111496537610592444360017000008055625150711119124069105924443600024000080916001607111152926371059244436000330000797457517071111528209210592444360006900006725575170711114932172105924443600104000067255751707111158764211059244436000320000676357517071111604621010592444360002700006725575170711115739962105924443600057000066325751707111151434961059244436000220000655957517071111605919610592444360002700006559575170711115913749))))
 (.node 4 (.node 2 (.node 1 (.leaf 10592444360000300006559575170711114922643105924443600048000080545751707111161940961059244436004230000794847521071111469637410592444360036600006534500200711118853272105924443600341000064844752107111157073811059244436006170000665245022071111882600410592444360061700006412410240711114772896105924443600714000086283502710111156719811059244436007140000865535027101111868801910592444360071400008642350271011119057840105924443600714000086183502710111190893681059244436007140000864235027101111879171810592000360062300008796390251011115732837105920003600431000089774752107111190398661059217136002470000888152519081111906506810592171360056700007820500200911116053011)
 (.leaf 10592171360054000008943500200911115230132105921713600656000089304752108111192030420895744436006170000733250020081111628036209278444360064300006997450220801115291478096184443600417000072024302308011161295100877744436006980000654435027080111557146704572444360066900005929350270201116405477046954443600643000058053302802011165607650781444436004670000834133028020111550378307572444360046700006981330280211115862063054514443600692000071743000002011133255680545244436006920000717430000020111332556805476444360069200007174300000201113325568054784443600692000071743000002111133255680854844436002830000749645022161111443189206636444360088500003515500201611115691471))
 (.node 1 (.leaf 7766444360062700004408450221611115576606084604443600148000069664502207111188488481059244436003070000579337026040111898540306793444360060500007421430230401115022425105922113600576000065194302309011192855001059223936004670000611135027090111481526410592000360014408239000625151401113958497105923373600247149175744502214011144328521059244436005850000697539025090111573549410592444360056701697221390250901116415211105924443600790000066853702609011195558951059226536006170000700237026090111575909010016444360027300005717625151611115695955094194443600714000053564752116111143152440917344436006980285537750020071111451633109173444360065600007207500200711119137467)
 (.leaf 10592094360062300007273500200711114787438105924443600400000088315501807111147290961059244436003340000872455018071111453966510592444360033400009026550180911114847077105924443600334000090215501809111162060391059244436003490000899555018091111475583210592416360029300006484475210911114583736088634443600198000084765251909111146881260886344436001040000876252519091111897187608479444360015700009016575170911116045117084794443600148000088916251509111155899571059244436000210000893762515081111906133609926444360018300008713625150911116342825061914443600431000065104502207111150126290619144436006270000354445022100111936433706191444360063400006542450220901116265645)))
 (.node 2 (.node 1 (.leaf 8300444360070900006997450220801115589440105924443600000004489934502207111170965601059244436005850000898852519071111576278610592444360043100007498430230711115000538105924443600714000062094302307111157520781059244436007140000642447521071111884529410592444360060100006632500200711115795874105920003600576000065645002007111159678591059200036003660000653450020071111897122510592000360059200006511475210711119095373105924443600221000079294752107111162529111059244436002150000803255018071111584651210592444360002400009041575170711115712745105924443600027000090315751707111147046721059244436000210000903157517071111597157410592444360003200009027575170711115716905)
 (.leaf 10592444360057600008108700120711116035249105924443600024000080916001607111191632541059244436001480000793255018071111916841010592444360002500008075575170711116142163105924443600026000066115751707111148196651059244436000210000641757517071111913243810592444360002500006632575170711119175088105924443600033000065305751707111157582221059244436001700000650655018071111909596710592444360002400006583575170711114745754105924443600585000078124302307111156360921059244436007140000783543023071111585098610592444360064300006562450220711114711440105924443600413000065014302307111157528271059244436001760000652743023071111570960810592444360042300008962430230711115705143))
 (.node 1 (.leaf 10592444360060500008814410240711114292551105924443600714000086553502710111157381711059244436007140000861835027101111438840310592000360019200009029525190711115819751105921713600334000089565251907111152172311059217136006560000884641024071111488377810592308360062300008331475210811116036098105923083600664004476604502208111159067860934744436005400000720243023080111635421410051444360041800007550450220811115927026105924443600296000072073502708111148814970818144436008240000593731029090111612155504779444360071400006607350270211116087129047114443600592000050943502702111158456320472944436004670000428635027020111631097007561444360046700006981330280211116012970)
 (.leaf 7311444360046700006944330280211115969356054424443600692000071743000002011133255680858244436000550399440845022161111560669008548444360077900004152525191611114451522073404443600742000041094502216111162269560846044436002470000696645022071111570391006793444360000600006797475210711114840272067934443600207000046624502207111154169390329644436000330000348945022021111900724310592444360048600007807410240401114963910105924443600576000089764502204111191100271059244436007820000903157517041111923429410592444360083700009032600160411115559652105924443600835000089674502212111154563051059221136006130000671143023090111499279910592364360054000006519430230901114651040))))))
 (.node 16 (.node 8 (.node 4 (.node 2 (.node 1 (.leaf 10592000360040003998763410241001115663258105920003600413109589415501810011154604821059237136003662722892460016100111536544210592000360034910958951625150901113982415105923373600357298489646001609011155530951059233736002730000735845022140111869437410592152360056718807395500201401115932029105924443600450000069484102409011151854231059233736002931420667739025090111502871610592337360048600005523370260901119473010105922653600567239460063302809011161122121059226536005760000521729030090111633350009694444360062709196865330280901115589316105924443600878000080104752114011158030860941944436002730000571762515161111414353410592094360058500005980475210711115566546)
 (.leaf 10592444360041300007683550180711114763961105924443600334000089415501809111150892521059244436003340000897655018091111504271210592444360034100008941550180911118994982105924163600257061759005002009111188723381059241636006130000556445022091111573977010592416360071400005477450220911114405451088634443600157000088646001609111166681790886344436001570000902760016091111598045010335444360002700009020625150811115061348098084443600144000084686001614111153870421030444436000230000871362515091111610495609594444360020700008618625150911116451447092994443600431000083875501809111162003200619144436003410000698447521091111614664506191444360060500007985625150911119134264))
 (.node 1 (.leaf 6191444360059200007360525190911115902747081944443600592000065104502207111189258590879344436005850000586545022090111655150704874444360076600004283450220201115036249086674443600576000074456501409011151105071059244436001920000886655018071111552820310592444360045000007686475210711114700090105920003600307000074174502207111151266111059200036003070000738541024071111597124010592000360061700006423500200711114536039105920003600576000065635251907111145036821059244436000550000781755018071111603572410592444360018300007911500200711115769024105924443600021000090385751707111144278211059244436000210000904157517071111560242410592444360002100008034575170711116044348)
 (.leaf 10592444360022600008053550180711115272282105924443600028000065305751707111148357181059244436000720000645157517071111587567210592444360011300006611575170711116024985105924443600113000065625501807111157736771059244436000280000603957517071111873244110592444360010000006505575170711118914292105924443600100000065835751707111157399621059244436001830000658652519071111891854310592444360001700007889575170711119044644105924443600007000080755751707111192336301059244436000140000803457517071111470224510592444360022100006612500200711118755897105924443600709000087804102407111142867781059244436004230000895745022071111581586410592444360071400008555350271011114176630)))
 (.node 2 (.node 1 (.leaf 10592000360023200008987550180711114702377105921713600442000089684752107111152258911059217136006640000609341024071111894177310592308360046700007574450220811116262294090514443600024000076215751702111134126930491744436007422273648233028021111623021204824444360046700005615370260201115471946054344443600692000071743000002011133255680867344436000260000457745022161111484906109531444360019801725564450221611115547209087394443600257000051406251516111141050740725144436003660000444250020161111568830206886444360084400003670475211611115691951076444443600072000044425002016111158151340755444436001980000689360016161111619579708876444360028300006893600160711118876236)
 (.leaf 7408444360022600005635525190711115809760060154443600170000046624502207111152423830329644436000160000440845022020111478149610592444360058500008237450220401114717017105924443600639000071014502209011145978391059244436004671499609039025090111864017710592000360046700006758410241201114435537105920003600467000074563902510011185437701059237136004500401853839025140111418458010592152360033400006789430230901115855792105923373600477109861213502709011159309150503644436006012634537625032020111577695708408444360069840446396310290901115686584054124443600664421366293502702011157713900870544436007823878682937026090111589180009918444360071936407240370260901115317243))
 (.node 1 (.leaf 9173444360071400004269475211611114604653105920413600100000047644752107111158750441059200036006050000607847521071111623877210592000360041331374421475210711116015572105920943600605000067925251907111191258331059209436005170000704752519071111458236210592444360035700007516550180711115320502105924443600334000090305501807111156762351059244436003340000903055018071111888796410592444360033400008894550180711119088185105924443600334000088945501807111191975301059244436003340000898755018091111476135210592444360033400008966550180911119115332105924163600366000059725002009111146842910886344436006690000566447521091111487065508863444360054000003680500200901115598479)
 (.leaf 8863444360044200004646550180911119249052088634443600664000055225002009111158316530886344436002210000870060016081111598742410335444360013600009014625150811115105575099764443600144000085156001614111162394850841444436005670000780552519091111472377307267444360032200007529600160911114288245081944443600567000071014502207111189965330619144436006210000654245022101111585601607063444360068200005884475210901115629319105924443600689000088776001607111158582131059244436006050000897752519071111579401110592444360036600007765550180711115992161105920003600384017262324752107111145139441059200036002320000593045022071111581470010592000360023200007550450220711114499550))))
 (.node 4 (.node 2 (.node 1 (.leaf 10592000360038400007871450220711114602860105924443600018000080545751707111148952791059244436001830000653450020071111657292510592444360055800006679475210711115436788105924443600021000090415751707111139166741059244436000210000904157517071111514471110592444360002100009022575170711114642455105924443600055000079935751707111148770961059244436000570000797457517071111631083710592444360002100006478575170711119154770105924443600144000063575501807111144423691059244436001480000641955018071111875806110592444360024700006481525190711114536046105924443600009000077645751707111145282991059244436004230000799152519071111426961510592444360055800007949500201011114643182)
 (.leaf 10592444360028300007929475210711118584821105924443600639000089524302307111154997751059244436007420000879639025071111474275910592000360036600008926430230711115777473105924443600634000087994102407111187741561059200036007140000859535027101111543161510592000360071400008642350271011118494893105920003600467000089934502207111145779751059200036002210000896752519071111912215410592171360019800008914500200711114681995105921713600384000077405002007111161789641059230836008560000571035027071111906928010592308360064300007550450220711118933217105923083600664000088144102407111152426940952744436006820000595247521081111586164709828444360048600007376475210811115869791))
 (.node 1 (.leaf 9174444360052800007563600160801116315172054254443600692000071743000002011133255680542744436006920000717430000020111332556805443444360069200007174300000201113325568088344443600232000046624502216111151165620918344436000640000498445022161111529729908739444360029300004744450221611114062700081094443600232000048815251916111155641070725144436002570000385252519161111434881007392444360023200007879600161611115878648074084443600226000044965751707111157495470329644436001000000303741024020111522710110592444360057600007928450220411115303581105924443600835000090064502204111193015071059244436005050402676639025090111417327210592000360046704026789430231001115301676)
 (.leaf 10592000360046700007469430231001115126087105920003600467240682823302814011153568381059237136004860727818931029140111595358710592371360043100007888600160901114602858105923373600423395864113102914011148159841059236936005282604685829030140111518584810592369360062100005732290300901115305217049824443600585000047692503202011153903590536244436004670000485225032020111515779704265444360089801737305410240201115102474084654443600647000058893102909011156858611059244436001140000817267513161111598569110592041360022100005717625151611114773188105920003600431000085325501807111158299531059209436003340000896655018071111595450810592444360033400009003550180711116203681)))
 (.node 2 (.node 1 (.leaf 10592094360033400009030550180711115949438105920943600334000090345501807111158737481059244436003340000887955018071111533516210592444360033400008966550180711115943456105924443600334000089555501807111158120071059244436003340000892755018071111594718110592444360033400008927550180711116033467105920003600349051288975002009111148604741059241636005490000570952519091111553374208863444360061700005232525190711118946418088634443600682000042935251909011192783370886344436006820000512750020091111493663908863444360015700008834475210811115027979088634443600157000090276001609111152172441059244436001440000904362515090111484544708671444360022700008434625150411115973381)
 (.leaf 8194444360044200005069550180911115716683081944443600293000073975751709111186362981059244436006270000898560016071111508439410592444360045000009003525190711114558609105924443600400000079115501807111188018471059200036004500000774050020071111582120710592000360023200007235450220711115939418105920003600283000076864752107111148114281059200036003220000901552519071111571479010592000360019800008029500200711119024073105920003600017000080545751707111158634751059244436000210000805457517071111491151010592444360014800007973525190711114946067105924443600021000090355751707111140416091059244436005850000812670012071111572424710592444360002100006559575170711114934852))
 (.node 1 (.leaf 10592444360016400006448625150711116274350105924443600307000066796501407111191588871059244436001340000668062515071111622146510592444360005500006135600160711116138154105924443600048000064515751707111160223641059244436001130000629955018071111588456810592444360021500006394525190711114472533105924443600010000061075751707111192074491059244436000160000863757517071111915494610592444360001600006323575170711118943826105924443600183000064805501807111145059001059244436001830000904562515071111573572110592444360061700009040625150711118522505105924443600686000080115002007111158854391059244436006340000872737026071111580105610592444360077700008711370260711115969094)
 (.leaf 10592444360047700009017450220711115696055105920003600669000086133702607111157401341059200036006820000871137026101111430367110592000360022100008987550180711115870257105921713600183000078935251907111190489191059217136006230000752047521081111904363610592308360074200006426450220711114962193105923083600689000089394302308111156895140980144436003450000716445022081111610260308031444360015000003656450221611115807922087394443600232000045774502216111141605000679644436002470000369452519161111587824306932444360023200004938600161611115992778105924443600576000076874502204111189141471059244436005850000892643023041111496273910592444360062700007148430230901114397631)))))
 (.node 8 (.node 4 (.node 2 (.node 1 (.leaf 6814444360046709268781450221001115783535068144443600467101973224102410011185046530424144436005170833679833028140111581441510592371360061300007659430231401115892362105923713600601000082505751714011152457831059233736005761576748835027020111959800610592337360060542106966290300201119113952049074443600771398870323502702011155439780428244436008360000654739025020111633479402532444360085800004894390250201115199743090794443600232000078466751316111162766171033644436002730000514062515161111951327910592427360068900003977500200711114684345105920943600334000090305501807111161171211059209436003340000889455018071111592912310592444360036600008973625150711115947251)
 (.leaf 10592444360034100008940575170911115969205105920003600322000088795501809111188873951059200036002260000735452519091111472812810592000360018300006063575170911118677223088634443600682219650485251907111143096940886344436006390000382147521090111477746808863444360015700008872450220811118866151088634443600157000090276001609111151770970862844436001830000902062515090111600436709988444360033400008924600160901116134180081944443600698000070985501809011145284620819444436008460000566245022071111900128508194444360068600006058450221001116131261087934443600621000059584502210011163859290586744436007990000474445022020111532133710592444360045000006533525190711114577509))
 (.node 1 (.leaf 10592000360007200007891475210711115980764105920003600517000077675002007111159681631059200036004860000782050020071111862145510592000360056700006632500200711115936968105924443600232000065865251907111146775061059244436000210000803457517071111939748810592444360005700008075575170711116297518105924443600021000090225751707111189127331059244436000240000902757517071111554639310592444360056700008090700120711119493387105924443600176000078915501807111164613551059244436000240000786957517071111951380710592444360001500007682575170711114712898105924443600055000075945501807111157867551059244436000220000759455018071111596574310592444360002600006170550180711115918598)
 (.leaf 10592444360002605136356575170711114736447105924443600477000090356501407111155129541059244436006010000904770012071111517315110592444360068900009006450220711114362092105924443600714000086553502707111145463981059244436005760000876341024071111866886210592000360071400008655350271011114014383105920003600714000086283502707111156511731059200036001830000898852519071111460689510592308360071900007417450220711115456493105923083600617000088665501808111195816501059230836001570290623445022081111560400009262444360061700006207450220811116059943089174443600495000067994752108111160337640873944436000110000365645022161111586141608444444360023200004577450221611114097070)))
 (.node 2 (.node 1 (.leaf 7961444360013600004408450221611115249480072514443600232000038525251916111156809290599944436002730000403360016161111541628607392444360022600004109450221601115831117074084443600221000045774502207011155873051059200036000220000348945022070111574042810592444360024700005662450220401115061609105924443600790000088093902504011150227021059244436008070000876139025080111493174510592444360059200006766390250201114542693014034443600558111078533902512011192795330681444436004770835822631029120111463750506814444360051707316765290301401116322132068144443600517040566733102914011167289081059237136006130000777743023020111611511710592371360068900007221390250901116268114)
 (.leaf 10592371360080701757309370260201119255107105923713600576000067683102902011160342251059237136006011283703639025020111604993505294444360068911106543370260201115020024056804443600505401370104752102011159066760719644436003700000675229030020111592382110336444360022600006186650141611115242689094544443600682000045475002007111191439321059209436003340000892755018071111906424410592094360033400008955550180711114943281105924443600334000088945501807111161205531059244436003340000894155018071111589896210592444360034900008909600160911115863577105924443600349000087395751709111188724431059200036003661110697250020091111440332410592000360018300005539575170911114525916))
 (.node 1 (.leaf 10592141360061304054744450221011114334961076244443600771000088014502208111190157600886344436001640000881845022081111594625909393444360034100008924600160901115685368079894443600592000083705251904111157455310875944436005280000856652519091111433034808436444360082800007067500200901115760802105920003600856000054404502209011189607741059200036008070000544045022080111492120710592444360079900008953600160711116767964105924443600621000079125251907111147688821059200036006130000787252519071111594937710592000360063400006483500200711115613157105920003600366000075724752107111145727221059200036006340000768550020071111587029810592000360061700007820500200711114194411)
 (.leaf 10592444360025700007844525190711119202885105924443600022000079505751707111147658001059244436000200000799357517071111597411410592444360002000009022575170711114683039105924443600148000090165501807111154938431059244436000190000900957517071111444167810592444360059200008010700120711116211281105924443600307000078666251507111154595201059244436000210000781557517071111476661210592444360001900007621575170711115987788105924443600004000076215751707111144260271059244436000570000778760016071111507295910592444360068200009023475211611115874539105924443600714000087443702616111142906651059244436007040000882539025161111586553010592444360001600009023475210711115493761))))
 (.node 4 (.node 2 (.node 1 (.leaf 10592000360054900008912430230711114361040105920003600656000086403702610111143397961059200036004230000900957517071111476325310592171360038400008869500200711115871603105923083600832000058283702607111191681091059230836006820000894252519081111504988910592308360034100006113500200811114910391091064443600709000057394752108111161884790876244436006890000735452519080111591603109510444360051200008094525190801116321594105924443600316000089584752108111164143110890544436000280000410945022161111450271108956444360023200004984450221611115209189084444443600192000044084502216111184937020707944436000080000457745022161111569373306572444360022600003694525191611115824135)
 (.leaf 6507444360022600004577450221601116168924071364443600257000048274502216011159408801059200036002070000330445022070111551285306015444360048623304469330280411114424803105924443600585000068713902512111192565421059244436005850000864639025041111905415910592444360058500008695390250411114670244105924443600835029390124502204111150177311059244436006860516696645022140111467969410592444360063400007101450220801118619874014034443600682136681914752102011156896780140344436005050000730231029120111532280701403444360051724558049290301201115648694068144443600540342176702703112011163239760681444436005400000632125032140111598526606814444360056700506426290301401115848474))
 (.node 1 (.leaf 4241444360066902938119450221401115047254042414443600925040769014102414011150910090693844436004670837804143023020111667802009454444360061700005034525190711114678921105924273600669000087435002007111144585381059209436003340000889455018071111912095910592094360033400008879550180711115003446105924443600400000088475501807111190510401059200036003220000558547521091111403058610592000360044200005657550180711115506271105920003600601000044565251909111140687141059241636002260000488152519091111431145110592141360068900004408450220711115484775105921413600528000035675002009011162567580762444436006560000486250020090111533984807624444360068900008780475210911119603193)
 (.leaf 8061444360019800008482625150901116439689105924443600198000089536001614111148896720815144436004770000831855018041111575290610592000360077700006426450220901114557424038364443600771000049904752102011188216820468244436006050000607847521020111597412210592000360063900007683550180711114000106105920003600505000077155002007111186405151059200036006010000776750020071111907996610592000360032200007741475210711118506552105920003600400000077675002007111186797601059200036005670000793150020071111589544910592000360056700007949500200711118831466105924443600048000080755751707111147987081059244436001160000795052519071111881589410592444360002500009031575170711114618163)))
 (.node 2 (.node 1 (.leaf 10592444360018600009034550180711115750731105924443600019000090355751707111144720321059244436000570000807660016071111595305110592444360002400007888600160711119477469105924443600021000077895751707111163118091059244436001000000773657517071111633077710592444360002000007910575170711115232030105924443600025000078895751707111153543541059244436005920000807470012071111487674710592444360068900009037550181611115541434105920003600164000090064502207111157624721059200036004420000900045022071111435206010592000360062100008685370260711114606636105924443600442000088253902507111157455191059200036007140000862835027071111591103610592000360066400008958475210711114151789)
 (.leaf 10592000360064300008927550180811115981969105923083600605000088795501808111159702681059200036002470000865652519081111898530310592308360048600008520525190811118797804105923083600689000085463702608111191717651059230836006640000891645022081111633280110592308360064300006029475210811119059236093764443600709000060485002008111167625820976644436006980000749052519080111576802710549444360031700008895525190811116420018074104443600634000090396501402111162470450908444436006290000554543023160111511555308233444360013400004257450221611114130947071354443600015000041094502216111160228620673544436002320000381145022161111570036206246444360023200004109450221611115750935))
 (.node 1 (.leaf 10592000360006000003966410240711114282894105920003600585000088374302304111192042581059244436005760000891645022041111488333610592444360059200008653370260901114645230105924443600617158871684502214011149057110140344436006820000711547521090111397819703965444360060509348090290301401117103607039654443600617051976702703114011168765911059235636005400519622325032140111683947506814444360054014465986250321401120643556105923563600540040969063102914011197498060681444436006052526741643023020111660224704241444360079011208180450221401119287855042414443600825278277384302314011160156220369344436009011961718739025020111901557303693444360092940937285410240201116145401)
 (.leaf 2217444360090706306032410240201116179718043324443600837029469774302302011158261730836744436000240934734260016020111561369208827444360051700005764575170711114904300105924543600714000064574752107111157561571059242736007140000619447521071111501977510592427360071400007438475210711118877055105920943600334000088795501807111162545311059209436003340000884755018071111481510010592094360041300005739475210711114176190105920003600400000048914302309111157213891059200036007090000511841024071111858855310592141360042300005249550180711118758125105921413600639000033654102410111186938290810244436005580000414957517101111477831807364444360033400008356600160901115880873)))))))))
 (.node 128 (.node 64 (.node 32 (.node 16 (.node 8 (.node 4 (.node 2 (.node 1 (.leaf 8977444360062300008637575170901114998874082234443600704000070104752108011164076610487744436003940000499047521020111596007810531444360036900008757600160711115967604105924443600221000090165501807111146604801059244436000600000900257517071111902703010592000360061700006506550180711113883174105924443600617000067215002007111186415451059244436004670000781952519071111583031710592444360018600007683550180711115907180105924443600293000078725251907111190385711059244436003220000789350020071111441973510592444360043100007971475210711114803913105924443600069000090265501807111148025391059244436001040000903055018071111582137010592444360013600009020525190711115699304)
 (.leaf 10592444360017600009015525190711114153688105924443600170000066125501807111159543671059244436000270000762157517071111426432910592444360002600007711575170711116180655105924443600057000075445751707111191088431059244436000330000776457517071111906154010592444360004800007544575170711116194237105924443600021000078155751707111161177891059244436005280000798867513071111593689710592444360057600009045625150711113922336105924443600766000090174502216111185923251059244436007660000901745022161111397268610592444360021500008885450220711114446998105920003600157000090014752107111142559991059244436005760000876139025071111860028710592000360055800008896430230711115614087))
 (.node 1 (.leaf 10592000360071400008670370260711115767715105920003600617000089506501408111162886311059200036006130000881360016081111621535010592308360064300008708525190811115932767105923083600341000088795501808111194400411059230836005490000896850020081111621619109376444360069800006327500200811115231244091804443600656000088955251908011151565110522444436006890000878965014020111690724108400444360002500003952450221611113849430064904443600100000039524502216111158239950717844436002320000395245022161111606393306005444360030700004257450221611118860334075124443600221000039524502216011155260090704444436001830000395245022160111600408410592000360034900004387390250411114194032)
 (.leaf 10592000360058500007202430230401118925166105920003600576063288994502204111148967291059244436006820000883141024080111906333810592444360059200008685370260901119259374105924443600686000084624302309011145365731059244436006821220711547521090111465816901403444360066900007953475211401114192391105923563600540000059792703102011154166041059235636005400000728639025020112009792804157444360089800007832390250201116362630041574443600934377773023902502011143316530210144436009172923623641024020111598531607343444360068223037928450220201116937429084924443600627000048015251907111146639131059200036007140000568547521071111883943010592427360071400006194475210711114825146)))
 (.node 2 (.node 1 (.leaf 10592427360071400007252475211611114173683105920943600714000088164752107111144415251059209436003340000886655018071111552042210592094360054002965794550180711113953230105920003600682000048995501810111157966941059200036006820000473655018101111861416710592000360068912944862500200711118451193105920003600689000046624502210111156582571059200036006433759488152519101111574195607145444360057600005305500200901116620324083774443600334000080586001609011173977390904044436003340000846860016090111638747610294444360079900008757600160711114912620105924443600799000090156001607111163188551059244436007930000903260016071111637305710592444360022600006507525190711113916837)
 (.leaf 10592000360029300006722525190711114329775105924443600477000067445002007111143984421059244436004860000793150020071111898904610592444360034100008011500200711115963162105924443600273000080525251907111190488841059244436000600000903755018071111920691710592444360018300009025525190711115724800105924443600116000090305501807111157341831059244436000210000903557517071111578966910592444360010400006683575170711115894913105924443600198000066605501807111160608451059244436002210000661255018071111621772910592444360019800006419550180711119215144105924443600026000062945751707111149549091059244436000720000610757517071111877685710592444360001800007682575170711114649509))
 (.node 1 (.leaf 10592444360003200007736575170711115932484105924443600024000078695751707111157440821059244436001000000793157517071111580635010592444360010000007815575170711115969741105924443600293000078715501807111192405261059244436004670000799260016071111481012210592444360071900009017450220711114620390105924443600627000090234752107111158699221059200036003340000902450020071111597192810592000360030700009000450220711118964931105924443600221000090195002007111160296911059200036002320000898850020071111891163910592000360048600008944475210711114694727105923083600585000089135251908111149196281059230836007190000876443023081111605424609376444360060500008849525190811114823340)
 (.leaf 9180444360050500008708525190801114919337060694443600689000089916501402011174254550814344436000170000425745022161111386603506488444360005500003489450221611116087082068114443600232000038114502216111157648610823644436002070000381145022070111616042110592000360002000002673430230701115768231105922323600540000044463702604111157342741059200036006130000452537026040111465265710592000360057600008957450220411118639723105920003600837000090016001604111194331641059200036008370000900160016041111955665910592444360083600008993450220401119204022105924443600698000088364502210011146747331059244436006340000731441024090111901098310592444360068206348117475210901115912291))))
 (.node 4 (.node 2 (.node 1 (.leaf 10592444360059200007377350270201118813081014034443600592000072233502712011166181380140344436006890000501729030020111570521903965444360060114556599270310201117041249061904443600540179566022903014011164858080396544436005401041691135027140111548094604157444360091929586948410240201114532087050924443600803354875234502202011159382540873044436000680000518467513161111623412210592000360066900005901500200711114472482105924273600714000070104752116111142397471059262636007140000719047521161111591616810592599360068200008743500200711114741528105920943600334000088475501807111155421481059209436003340000889455018071111600858810592094360033400008879550180711114093904)
 (.leaf 10592094360033400008779550180711115795854105920943600322000057945501807111135833181059221636002730845596457517121111379214210592216360042300005746575171011115565544105922163600682029754785501810111157156101059221636006823728509157517101111577414210592216360068241425048525191211118521826105921413600623041261993902512111155787031059214136006050522555233028121111592836410592141360062100005711370261211115514086076244443600682000061674502210111158137880879344436006270000465143023100111967758807145444360059200003534410240901115790386105924443600799000090396001607111145073991059244436005920000903260016071111637465910592444360024700006634525190711114211261))
 (.node 1 (.leaf 10592000360024700006507525190711113987060105920003600283000067215002007111142078491059244436003490000672047521071111879139010592444360014800006745525190711115856846105924443600100000067625501807111158733941059244436002320000676255018071111483798810592444360001800009035575170711113984990105924443600021000090385751707111184279271059244436000260000663257517071111861774710592444360030700006302475210711115081399105924443600207000064235002007111162876091059244436001000000629457517071111469012910592444360005700006530575170711114197009105924443600064000059645751707111161782251059244436000690000589357517071111590946710592444360006000007652575170711116186414)
 (.leaf 10592444360011300007840575170711114534845105924443600467000065335251907111187769101059244436006340000900850020071111432391510592444360076600009006450220711114572973105924443600704000090234752116111160968081059244436006980000903755018071111646467510592444360076600009017450220711119335545105926263600698000089814302307111188473231059200036001570000901847521071111881221210592000360036600009000450220711114655289105924443600183000090195002007111187568351059200036001980000901950020071111576180410592000360011600008944475210711114461172105920003600621000087644302308111158707741059200036006820000858539025081111603340510592308360071400008619390250811119165527)))
 (.node 2 (.node 1 (.leaf 10592308360071400008679390250811116041058105920003600766000088854502208111158715930937644436006690000889750020081111917308009376444360066900008852475210811119137111091804443600621000060294752108011193958850588844436006050000890665014020111707724207994444360005700003656450221611113485710070274443600007000036564502216111157218080676044436000550000365645022161111571552006508444360022100003489450221611115677531070064443600232000036564502216111152238880741144436002210000395245022161111606058910592232360057600002835450220701118962971105920003600585000085013902512011142206351059200036005760000891645022041111600933810592000360083700009001600160411114544495)
 (.leaf 1403444360035700007339330281401116230392014034443600704000050172903002011153062090619044436008030525659431029020111709794906190444360054004136929330280201115572442056974443600540104470004102402011167200010415744436005400181772841024020111653090001403444360083901817352390250201114402955085614443600221000050426251516111141669030865844436002210000478962515161111584718910592000360061700005901500200711118830484105926263600558000071395751707111148310811059209436003410000713957517071111450065810592094360033400008671550180711114018012105922163600341000086375751707111185507761059221636003661226625762515071111575472910592216360029301816354600161011115363944))
 (.node 1 (.leaf 10592216360029300005432575171011115560665091324443600664029860584502210111143519960879344436006390000544045022100111556342107790444360036600008688575170901115403004105924443600799000090156001607111158391141059244436002070000897655018071111451317010592444360002800007889575170711114228569105924443600307000079745751707111189830161059200036002070000661255018071111389230710592000360017600006531550180711118807771105920003600186000067635751707111138730911059244436002320000680257517071111410315310592444360014400006786600160711118859684105924443600055000067475501807111188882891059244436000210000805252519071111589411310592444360005500008030525190711114164398)
 (.leaf 10592444360003200007950575170711114184426105924443600021000080345751707111160316451059244436001000000803457517071111495718410592444360002100008034575170711115641537105924443600021000080545751707111149846991059244436001160000797262515071111499004810592444360002100006417575170711114962084105924443600232000065065501807111191183261059244436007190000902347521071111404498310592444360048600009017450220711114549792105920003600144000090064502207111143476401059200036004130000900147521071111580431510592000360007200008968475210711118968170105924443600164000090195002007111140538591059200036002570000898850020071111595599710592000360019800008977525190711116009235)))))
 (.node 8 (.node 4 (.node 2 (.node 1 (.leaf 10592000360022100009003550180711114271393105920003600719000088994502208111159841551059200036007190000894445022081111606048110592000360082800008523370260811114509191093764443600627000061734502208111159641550949144436005850000876345022081111982026109180444360060500008600500200201116439867061154443600558000088766251502011159409080910744436004440000568131029081111546032310592000360000200002835450221611113642641105926263600000000033044502216111154600160664644436001860000330445022161111587707910592000360002100003304450221611115850682105920003600018000028474752107111141551431059200036003340000336541024071111555955310592232360059208514323430230201114315672)
 (.leaf 9701444360057600558781450221201118900150105920003600837000090396001604111155191881059200036008370000897460016041111568683410592000360083709559015600161411116034701105920003600837000090165501814011145597200140344436006431611538629030020111466048406190444360070406395017290300201116524787056974443600549074473894102402011158019830140344436006692743782045022020111871300505009444360063400006641450220201119206618085854443600198000047805002016111140274571059200036003840000598047521071111506880510592094360065600005238475210711115801765105920943600709000057085002007111149536821059209436003340000872455018071111407068410592094360036600007588625150711113977661))
 (.node 1 (.leaf 10592216360036600007588625150711114287399105922163600164018360395751710111155270831059221636005400000577631029121111426123209132444360059200005507370261011113918778071454443600682000045164502210011150343050829644436003570000875760016090111635356509987444360079900008604600160711116184491105920003600273000089655751707111159497801059200036000640000902760016071111878771710592000360022600006394525190711113537667105924443600273000065345002007111158675241059244436002320000670050020071111578378910592444360017000006659525190711113936180105924443600186000067025251907111191180831059244436001340000668355018071111392752310592444360002800006763575170711115624472)
 (.leaf 10592444360002600006784575170711114286138105924443600024000080345751707111144432661059244436003410000812867513071111574041810592444360002100006530575170711114691528105924443600021000066325751707111164254951059244436001000000655957517071111467496910592444360017000006419550180711114358269105924443600247000078155751707111161312811059244436006130000897850020071111608027910592444360068200009041575170711114744383105924443600719000088403902507111147663911059200036007190000884039025071111568916210592000360034900009012450220711118609565105924443600247000089774752107111158680501059200036002210000902450020071111869791110592000360022100009021550180711116214642)))
 (.node 2 (.node 1 (.leaf 10592000360022100009010550180711116086068105920003600221000090165501807111187406921059200036007190000869937026081111457528710592000360078200008957450220811116026857105920003600766000085343702608111145132350949144436005670000871045022080111530565509611444360045300008876625150801116001170053314443600692000071743000002011133255680823644436000640184458255018071111919098508236444360054903014748370260711115967565105922323600467000044084502204111144187671059200036008361543891243023100111595528810592000360083500008831410240901115816825105924443600698000084793302810011140354601059200036007420000837931029100111869537109235444360077100008359310291001115858465)
 (.leaf 9235444360064300008640370261001118485966105924443600656000082053102910011160648640140344436005921311708627031090111589456906190444360069821905427310291201116732693061904443600549000068893102912011169386260619044436006050959664627031140111473654105697444360057600007685430230201114889084049234443600567000067114302302011189443770482744436006172240654245022020111635295208723444360018800005042625151611116193835086594443600232000038525251916111140726511059200036006050000527647521161111832249610592599360036600008830625150711119323901105920943600341000085955751707111192505031059209436003340000867155018071111911787910592094360034100008637575170711118967513))
 (.node 1 (.leaf 10592094360013400006888550180711113902352105920943600366000075046251507111187724171059221636003660301758862515071111589820210592216360022618127361625151211115861674105922163600517000054793502712111139201950913244436006010000499837026101111409916410181444360062709595221450221011114036767105922943600627052851144302310011194682121059229436006210000375341024090112007298907471444360068600004264390250901115408886105920003600069000079736001607111161968291059244436002320000658555018071111577680410592444360021500006454525190711118441274105924443600207000064815251907111155909911059244436001920000645355018071111574173310592444360019800006586525190711113885567)
 (.leaf 10592444360019200006722525190711115734536105924443600226000066345251907111158570181059244436000210000655957517071111575818110592444360006000006585550180711115743282105924443600064000066835501807111157104481059244436002830000782050020071111870057610592444360002100008034575170711115970248105924443600021000080905751707111159646811059244436000210000807557517071111354865810592444360002100008075575170711115833870105924443600136000081266251507111159060771059244436003840000796967513071111465855710592444360029300008054650140711114956015105924443600431000079696751307111160411891059244436007710000898747521071111403436710592444360077100009023475210711114496552))))
 (.node 4 (.node 2 (.node 1 (.leaf 10592444360077100009023475210711114420934105920003600682000089054102407111139005961059200036003840000900850020071111584602610592000360022100009034550180711119117532105920003600719000088093902508111147186981059211636007190000896850020081111962323210592000360083530448268310290811114461888094914443600617000058834752108111146602581059244436005600000888955018080111606011808781444360002700004662450221611113560125084204443600000000027214502207111186968811059200036000000000230745022161111824054910592084360002100003528525191611115671881105921013600027000041215251916111186385171059210136002320000416260016071111581101507725444360057609643549575171011116256131)
 (.leaf 8077444360059200005455430230411118735009080774443600576030358426001604111187461510970144436005850000899550020101111883915310592444360047723756889310291201115060825061914443600517064366462703112011162895520619044436005401148655725032120111943020405697444360051721036741270311201119945380056974443600540030365462703108011165978940491844436005400000688931029080111626256805697444360054007486758410240201115694854051554443600601155070844302302011141836040920944436003220000546662515161111596511009113444360035700005389625151611116231172105920943600714000061714752116111185993061059209436007140000620547521161111531355910592094360071400007376475210711115545078))
 (.node 1 (.leaf 9604444360034100008543575170711114032333096044443600148000052735751707111157301940960444436001980000537760016071111855711710592216360036603037733625150711119190867105922163600207000074456501410111137044741059221636004000000783845022121111386143109132444360035708646966410241011115723899091324443600528018548754302310011138523731018144436006230000487543023100111897873710337444360030700006453550181211113870066105924443600032000067475501807111156226491059244436002260000672150020071111374777110592444360014800006747550180711113847237105924443600247000067005002007111154132761059244436001570000653352519071111569668210592444360006000007871550180711114031084)
 (.leaf 10592444360059200008074700120711116049550105924443600592000080107001207111140711531059244436002320000805355018071111471829110592444360068200008977475210711113966604105924443600601000090527001216111152503611059244436006560000904157517071111607973210592444360059200009052700120711114781524105924443600221000090375501807111153489361059200036007190000884039025071111857031510592444360063400008840390250711116017454105924443600247000090245002007111142670900642544436001340000902952519071111615510810592000360040000009018475210711114400973105920003600442000089944752107111146452181059211636007090000877839025071111920842510592116360056700008967450220811114718454)))
 (.node 2 (.node 1 (.leaf 10592116360042300008853450220811119095090105920003600714114871904752108011143193190889444436006890000701047521080111933273107547444360065621488152430230201114567219105920203600000000026154502216111138462231059210136000150000430750020071111578956707846444360002500004456525190711118550933086444443600192000066586001607111159685970772544436005400186395245022071111849959508077444360058504205788450220411114131588105922083600639000084793302810011160005011059220836006560000851833028100111859360210592444360001600006217350271001114076659105924443600113000060663302810011193219611059244436004860000580829030120111923472610592444360056718226921310291201119203641)
 (.leaf 6191444360061301866134250321201115266338091154443600664005863532503214011193103850911544436006340000613425032080111639801507479444360060505326924430230201115854500101424443600549357475985002014011157099331059244436000190000807665014140111547095508202444360034100004938600160711116450870105920943600714000058114752107111155764971059209436006980000590050020071111543521909604444360034900005640625150711115964923105922163600366000075046251507111160590031059221636004000420616745022101111353484010592000360006900004110370261001113993688105924443600004000021473702610011160284261018144436002930000462339025100111465376006097444360070400003687390250901115742677))
 (.node 1 (.leaf 10592444360018300006583575170711114285673105924443600215000065854752107111156980681059244436001040000668252519071111421892410592444360011300006761525190711113563113105924443600069000066345501807111137803431059244436001040000803457517071111597343610592444360010000008014575170711116285413105924443600055000080545751707111161652401059244436002320000810962515071111614957110592444360059200008090700120711113688128105924443600592000081087001207111161185691059244436004770000802970012071111455124910592444360022100007992550180711114417894105924443600771000090014752107111159680001059244436007660000901847521071111409389210592444360074200009024500200711114224710)
 (.leaf 10592444360077100009023475211611115560665105924443600601000090527001216111190050531059244436005920000905270012071111639303510592444360022100009037550180711114971638105920003600423000090184752107111160557441059244436006340000892041024071111610635110592444360022100009028500200711115912109064254443600247000090285002007111186480461059211636006560000901245022071111610700010592116360042305327180550180811119304293081704443600442000074995002002111195443020677344436007930000730541024020111524005510592444360077400009017300001401113325568078204443600003000039524502207111134570801059202036000000000246843023161111555481608644444360002700594962525190711113710960))))))
 (.node 16 (.node 8 (.node 4 (.node 2 (.node 1 (.leaf 8077444360057600008892600161011114016689097014443600585000087625251910111141455161059200036008280534843931029100111573924310592000360068908738107310291001113950685105922083600782000083593102910011135676671059233636005670000573733028100111424396210592336360060518285653330281001118993377105923363600669000060623702610011189119821059233636006641703692933028120111864746906191444360070400005752270310801115027062091154443600777042358082903002011145285340911544436006051406675937026020111395948104918444360055800006758410240201116476223086024443600113000046465501807111142843381059209436000260000412347521071111574576210592094360071400005102475210711115520077)
 (.leaf 10592599360071400005664475210711118299349105925993600366000056406251507111132700630960444436003660000470362515071111356862210592216360036600007051625150711115816804105922163600384260070155751710111157073101059221636004000000642645022101111865865510592444360000000002107350271001115815510105924443600004000021473702610011142985911018144436005490187492139025100111925842710181444360062700003809430231001119855953063394443600643000037534102409011160192900738744436008240000685460016140111753165710266444360045000006394525191211113912571105924443600048000067055751707111140869831059244436001920000663452519071111859686910592444360006900008013550180711115461211))
 (.node 1 (.leaf 10592444360003200008075575170711115788951105924443600186000090375501807111146851781059244436006210000807762515071111918509610592444360056700007973600160711114576663105924443600334000090375501807111186871191059244436004230000902155018071111574510410592444360076600009008500200711118990586105924443600714000090184752107111186111631059244436007190000902450020071111589682510592444360076600009019500200711114536888105924443600714000090295251916111138540391059244436007710000901847521071111383203210592444360060100009052700120711114442854105924443600540000090516751307111162066271059244436002210000903455018071111915862210592444360068600008876410240711114151663)
 (.leaf 6425444360050500009018475210711113657796105920003600613000088464102407111192125641059200036007140000884039025071111677980810592116360061700005657550180811114813917081704443600540042362714302302111144768370509944436008370000827850020020111718033006480444360053000008065410240201116424395055074443600681000067353302802111151002081059224036000000000242741024161111323579210592084360000900003316475211611115773829105921013600008000052764752107111139907991059210136001340000750257517071111395944509677444360057600006224600160711114384445080774443600585000083574302310011157062970970144436005760000598760016100111379056609701444360080700009030650141001115812160)))
 (.node 2 (.node 1 (.leaf 10592000360071905368699370261001113957055105920003600704064980732903010011135495071059244436008480000650231029100111848245206191444360070429488801450221001113910078061914443600714064986354302302011185986040911544436007421414880145022090111409187409115444360045031998357430230201113422035105925993600714000059524752107111158092041059209436007140000707547521071111864886408938444360071400007134475210711118802767105925993600714000071344752107111160236081059209436004420000555062515071111365109110592216360036600006989625150711115862271105922163600400000066414502207111134975390923544436000130000233537026100111918416506766444360018600004048390251001119554332)
 (.leaf 6529444360060100003534410241001120571824068384443600621216435884302310011153618621013244436004230000647857517121111413328010592444360040000006723625151211115818526105924443600273000065586001607111158776661059244436002320000649965014071111608590710592444360011600006787625150711113481843105924443600069000067026251507111157273811059244436001440000661255018071111570465910592444360015700006683550180711116036847105924443600549000067204752107111183631501059244436001480000803052519071111939634910592444360002800008054575170711116677572105924443600176000067235501807111160813411059244436007140000902347521071111652186210592444360071400009023475210711118887936))
 (.node 1 (.leaf 10592444360071400009018475210711116744486105924443600505000090245002007111166161751059244436000550000903557517071111905377910592444360003200009027575170711114271823105924443600549000090295251907111191377571059244436006340000797457517071111639741710592444360071400007795475210711116242830105924443600592000078735002007111161633161059244436007140000902952519071111421180410592444360071400009013475210711113612989105924443600766000090195002007111192895971059244436007660000901847521071111633759910592444360074200008994475210711115793758105924443600742000088984752107111186314201059244436007710000888447521071111402124010592444360052800009000450220711113619386)
 (.leaf 10592444360069800008670370260711114028603105924443600334000090245002007111140274261059244436002210000903055018071111614254706425444360023200009037550180711113742956064254443600247000090375501807111189836601059200036006340000872539025071111915187010592000360062100008678475210711114608666105921163600601064957775251912011142864460923844436006640000468633028071111504894108382444360066900004286350270711115247957105922403600000000024274102416111181916581059208436000150000331050020161111315853909634444360014400007855575170711118843209086444443600293000084686001607111135542440920844436005760189864960016071111589256509677444360058500008404350271011115710570))))
 (.node 4 (.node 2 (.node 1 (.leaf 9701444360058510715232525191001113794600105920003600803042687783902510011137960321059200036007040650780625032100111348059010592444360070400617981270311001118305867105924443600148133162173502710011135092351059233636000240000745535027100111579923310592336360028300006996410241001118531857061914443600669190472364502210011137570550619144436006010061736531029090111417432409115444360056708817391350270901116139895091154443600704000083304502212011158213351059244436000260000900062515120111501534808221444360002700003694525190711113837829080474443600247000035014752107111157882220893844436007140000719047521071111589650208938444360071400006954475210711118453701)
 (.leaf 10592599360071400007190475210711113402740105920943600714000069544752107111136448960960444436006560000687452519071111373984709604444360071400006903475210711113465062105922163600384000064264502207111157541730890344436004310000481643023101112030943108903444360065600006171475211001116962604099064443600634000088916251512111169328131059244436003220000897460016121111883937410592444360050500006611575171211113772741105924443600585000066595751707111139778591059244436003070000672560016071111826362610592444360005500006562550180711118313256105924443600104000067835501807111157987071059244436002830000670050020071111862055010592444360022100006657500200711115751551))
 (.node 1 (.leaf 10592444360022100006744500200711118447206105924443600226000067445002007111159958851059244436000330000670557517071111452008810592444360071400009023475210711116150603105924443600714000090234752107111161256641059244436007140000902347521071111606913510592444360071400009013475210711116035117105924443600467000090245002007111160790141059244436005920000902870012071111920170910592444360061700006803675130711116113872105924443600714000067455251907111186395041059244436006980000901847521071111593985210512444360063400009008500200711114045760105124443600719000088825002007111158113801059244436007420000774147521071111615215210592444360071400007438475210711115937828)
 (.leaf 10592444360071900006954475210711113924421105924443600221000089765501807111138574111059244436004230000774245022071111621729510592444360059200009024500200711113571294064254443600558000090145002007111184515360642544436002320000902052519071111873843710592000360051700008040475210801113957488105920003600621000085435751708111161892781059211636004130000699955018100111929765510592444360065600005029500201001119393777081704443600341000045974752110011162808470817044436003660000701143023020111936197805038444360068206508412500200201116534358105922503600134000027214102407111132973321059225036000000000288543023161111820953900238444360029300003694525191611118227795)))
 (.node 2 (.node 1 (.leaf 10592084360011300006147550180711115380179086444443600576000053776001607111158112580967744436005760000813360016071111431408509677444360043107737713370261001118639958097014443600576031080586001610011134551751059200036008240191846431029120111359073310592000360076600007936270311001118179190098244443600845054082683102910011129385521059244436000080000644635027100111328631810592444360000000006333350271001118329382105924443600008280968933702610011133014891059233636006170654722139025100111865331710592336360074200006032410241001114007288105924213600540000067463102909011147862230911544436006640310732241024120111620848810592444360001900009039650141001114331939)
 (.leaf 8940444360013200005377600160711115684753079954443600486000038214752107111134904540893844436007140000675547521071111325220510592599360071400007075475210711115538884105925993600714000066694752107111156528941059259936007140000666947521071111576674410592094360071400006572475210711118388368096044443600714000068344752107111134962140960444436007140885683447521071111330187109235444360001700002434370261001114674046089034443600192000039664102410011144805740709844436006430000444245022100112014350607763444360068212616447575171401114701398105924443600293000089646001612111142557281059244436005050000668062515121111349346510592444360066900006585550181211115793515))
 (.node 1 (.leaf 10592444360070900006563525191211118551257105924443600613000065335251907111158042741059244436001480000672252519071111341394510592444360013600006702525190711113528747105924443600714000090234752107111187625001059244436007140000901245022071111347546010592444360071400009000450220711114170332105924443600714000090004502207111185186241059244436006270000674862515071111432259210592444360059200006802700120711116268053105924443600686000067255751707111139779571059244436007140000903352519071111444960810512444360071400009025525190711113910195105124443600714000069544752107111140952821059244436007190000733250020071111356736810592444360045000009045625150711114629544)
 (.leaf 10592444360043100008942525190711119011297105924443600072000078455002007111136704451059244436006230000788945022071111584569206425444360068900007988475210711119057780064254443600232000079495002007111193974530642544436002210000888152519071111455456310592000360078200008882500200711118857865105920003600549000088655751708111189156491059200036006170000898747521081111593330410592000360066900006532550181001114231170105924443600341088567725002010011143831330583344436003330000731347521020111665961808684444360068200003882250320711115738115072064443600057000023234102407111131634100023844436000000000226343023161111569587200238444360011300004121525191611113307014)))))
 (.node 8 (.node 4 (.node 2 (.node 1 (.leaf 9403444360019200008338575170711115988860096344443600576000057676001607111184733790967744436005760000860460016071111377886409677444360002000008062500201001115793161097014443600000000045774502210011138809690970144436008070778834231029120111584960910592000360082400638439310291201113575950105924443600000000073003502710011133079501059244436004860000712541024100111604319410592444360084200006908310291001118538262105923363600845000070683102910011158008941059210336007772694690141024100111603622910592421360062700007302390251001119138792105924213600698000074174502209011161040751059242136006890000752345022090111587364809115444360069800007550450221201113995622)
 (.leaf 10592444360001900009048650141001114499409083744443600664000047805002007111133773150893844436003490311545947521071111356047810592342360071400006669475210711115886917105923423600714000067554752107111185973980960444436006820000657247521071111347457209604444360071400006755475210711113459775105923303600198000069844752107111159606331059233036000550000715247521071111864669410592000360041300006670430230711115997212092354443600423000052413902510111192430530923544436002070000492139025101111622822506698444360022100004310390251001119529106089034443600601000051454302310011157423990627844436006210000499147521090111663678210592444360068900006563525191211113474451))
 (.node 1 (.leaf 10592444360054900006659575171211113282802105924443600164000066125501807111135591121059244436002470000665952519071111569793710592444360029300006722525190711113650573105924443600714000090174502207111159678891059244436007140000898645022071111595102310592444360071400009006450220711115856346105924443600714000090155251907111137116131059244436007140000900952519071111459306310512444360071400009015525190711113625135105124443600766000076275002007111188824431051244436007140000771452519071111353940110592444360071400007252475210711114062511105924443600341000088984752107111140625271059244436007040000791047521071111605004606425444360015700007974550180711115995035)
 (.leaf 6425444360048600006455500200711119216090064254443600576000066595251907111166546160642544436003840000896655018071111487295206425444360011300007845500200711119074044105920003600221000079115002007111158958741059200036002210000782050020071111611224310592000360054900008763450220811115839709105920003600664000082523702608111188032931059200036008360000816333028121111623790110592000360064300005029500201201118956651105924443600477000048625002010011188157300449444436007140000585743023020111498272505598444360047600007320475210201116656002105924443600597000082804502214111160286850720644436000550000222641024071111302755710592101360035724587181525190711113343085)))
 (.node 2 (.node 1 (.leaf 9677444360057600008649600160711113255726097014443600104006442935251910011143384381059200036008240431794325032120111597716010592000360082401938241290301201113593168098244443600870000082263102912011129688750982444436008700312834231029100111284096009813444360000000007661350271001112917786105924443600069019378533902510011184480141059244436004230000709335027100111598776809115444360080300007055350271001116127516091154443600686000075234502210011137827251059244436000190000903965014100111410109210592209360010000005459475210711118500193105923423600714000065724752107111158870791059234236005580000657247521071111340996210592082360028300005980475210711118910347)
 (.leaf 10592082360071400006078475210711118233086105920823600634000059804752107111157994361059200036000000000544045022071111587919410592037360001600004764475210711115858556105923303600558000074084752107111160199951059233036005850000617147521071111875364407109444360041304316037430230711113991407071094443600634000058654502210011172739330626244436006820000453147521100111602184410592444360020500008973625151211116234470105924443600698006466805002012111133654811059244436003070000672362515121111348105410592444360017600006764600160711115577994105924443600413000067045501807111158838291059244436007190000672252519071111319997010592444360055800006534500200711113734940))
 (.node 1 (.leaf 10592444360071400009007475210711116123862105924443600714000089944752107111162143061059244436007140000896847521071111614530710592444360071400008899450220711116164118105924443600714000088955251907111162197691059244436007140000897752519071111605506010592444360005500006398475210711115867888105124443600004000064574752107111137145931051244436007140000743847521071111383603710592444360071400007057450220711113582873105924443600104151389154752107111133371640642544436006860000648447521071111890125806425444360064300008898475210711116246059064254443600686000090155251907111140296740642544436002830000789350020071111363089910592000360022100007820500200711118527381)
 (.leaf 10592000360069800008883430231211116130765105920003600771000067133502708111132638681059211036008530000698633028081111580737110592000360082400644816430230811115886057105921103600664000059804752102111185864680444944436005490000622150020021111524062806250444360052900008057475210201116556255105924443600597000082804502214011160286850660844436001000000232341024071111323612900238444360000800002307450221601113024371000006143600617000064736001607111155985611059259536002730000833857517071111353675910003444360055800008892600160711113251178105920003600215000044965751710011138963151059200036008370433897645022120111382470210592000360082409977943250321201113568054))))
 (.node 4 (.node 2 (.node 1 (.leaf 9824444360081900008124270311201115769366098244443600867000081683102912011158237180981344436008700000816831029100111576230009813444360002100006392370261001112999238105921033600006000079783702610011184197341059210336007190000780037026100111575075209115444360079303147547410241001118418793091154443600779000076024502210011131738460890244436004130000677060016071111558069010592342360006400004990475210711115765114105923423600009000054594752107111159148321059234236001160000568547521071111857120610592202360034900005685475210711115841866105922023600423000059804752107111157986981059260136005280433645747521071111584723010592037360055810885238475210711113616041)
 (.leaf 10592330360022100004096475210711113607019071094443600689000045974752107111142910370710944436006820000523847521100111734567907003444360068200005851575171401115704066105924443600208000089736251512111158897051050144436005284066897362515121111579150810592444360017626776450600160801118815424105924443600621000066345501812111158606621059244436007420000670252519121111347452610592444360044200006803600160711113367063105924443600540000068036001607111159498521059244436005760000656450020071111364696110592444360071400006398475210711114066747105924443600682000063024752107111159959471059244436007140000661147521071111884352610592444360071400006654475210711113781457))
 (.node 1 (.leaf 10592444360071400009012450220711116691428105924443600714000090124502207111152532441059244436007140000896752519071111554742910592444360024700006302475210711114329131105124443600021000064244752107111138080291051244436001920000663250020071111589173510512444360065600006508500200711118839960105924443600714000071744502207111184773521059244436007140000766045022071111577693610592444360071400006424475210711115878394105924443600771000065634752107111157569660496344436004860000642447521071111611293106425444360068900008988500200711119347795049634443600623000090155251907111162950990642544436002210000789350020071111368864910592000360054000007911500200711115900146)
 (.leaf 10592000360070900007845475210711116053447105920003600613000076235501808111134766160696544436007190000725347521020111669860404786444360076601947873500200201116235146056404443600441000072364502202011162616720706744436000000000209145022160111280343410592101360023200009001600160711114081993100034443600164000080955501807111131752650967744436000160000514543023100111600077409677444360060100008499475211011115862321105920003600540000079856251510011188094931059200036008370000880667513120111421795709813444360084200008163330281001112979066098134443600742000083884102410011185248461059210336004860000657941024100111345604509115444360019800006641450221001118801461)))
 (.node 2 (.node 1 (.leaf 7974444360036600006473600161211115222425105922093600682000035675002007111186731331059220936006210000453147521071111867308010592000360011600004990475210711115809517105922023600605000054594752107111187601011059203736007140000657247521071111347683208088444360062100005238475210711116313276068964443600704000047644752110111209075510689644436007040435453147521101111778032306896444360066910014744450221001117060045072654443600682144954404502210011172379530699044436002800000570557517090111696774510133444360064300006660550181211113645247105924443600698031565645002012111159160871059244436006690000663455018121111863468310592444360062300006634550181211113057125)
 (.leaf 10592444360060500006725600161211113407063105924443600349000066345501807111187484461059244436003070000656255018071111594926610592444360066400006395500200711118646600105924443600719000064815251907111162567480942544436007140000645747521081111629471410592444360071400006398475210811114435250105924443600414000090124502207111163122351059244436004840000841552519071111569129210592444360037300007276550181211115798560104484443600656000066806251512111138604721039444436006170000645452519071111660986810394444360051700006533525190711116169693105124443600486000064545251907111158701761028244436003340000632750020071111578190310561444360062100006395500200711115850680))
 (.node 1 (.leaf 10512444360060500007438475210711115755944105924443600714000072974502207111184606741059244436007140000768745022071111356902410592444360071400007715500200711116197202105924443600719000090205251907111161263320496344436007140000901552519071111601467106425444360071900009015525190711114291524049634443600714000089885251907111188646320496344436007190000902052519071111622532004963444360070900009002500200711116369644105920003600183000089135251907111161271321059200036002930000776652519071111613360910592000360030700006563525190711116084034105920003600621000079495002007111186605651059200036007140000774050020121111873167410592000360070400007627500201211119333815)
 (.leaf 10592000360066901967151500201211116097283105920003600689043570475251910011142453681059211036006820000660862515080111615425704640444360068200008374625150211116363945070224443600517031584106251502011157135280818344436006692308482237026101111582073100238444360066419443903270311011115854113002384443600002000021434502216011128386370000061436001480000207550020160111556663810592101360061700004316575170711113028088105921013600528109982665751707111132284611030044436005670000760733028071111607820410300444360082800008402675131211118353116105920003600837031787637001212011184536961059200036008370906893145022120111848010510592000360082810078282330281201115544530)))))))
 (.node 32 (.node 16 (.node 8 (.node 4 (.node 2 (.node 1 (.leaf 9824444360082404377831250321201112971496098134443600842000083583302810011132934000277244436000550000671143023100111371613509115444360029300006737450221001114055358105924443600601000090245002012011157320830835144436001190000647360016121111537344308716444360036600006976600161211115765486082974443600366054964475751712111159890641059244436006560000369452519071111580099510592209360042300004106500200711115840762105920003600064000049904752107111157466621059220236004860000409647521071111334775910592202360006403176194475210711113246406105920003600198054959804752107111128974990731344436007140000545947521101111949296407812444360068216866058450221001116907190)
 (.leaf 10014444360020709066528625150801113975260103614443600623000067235501812111185148331036144436006050000672557517121111594973210221444360061700006784575171211116111352104414443600686000065855501807111186243821008544436007090000650557517071111874120010085444360071900006506550181211115975335094254443600766000064506001612111144503800878544436007140000639550020081111410546908785444360069800008779550180811114121280093864443600617000065257001212111156129060983344436006340000660667513121111575853410394444360074200006504600161211113395635099984443600719000064805501807111157933901014444436007140000711645022121111397013810592444360071400007548475210711118975747))
 (.node 1 (.leaf 10592444360071400008988525190711116274096105924443600714000090335251907111190837620642544436007140000901552519071111362871404963444360068600008846410240711114574402105920143600639000070475251912111138299831059200036006210798641455018081111920428304640444360066904376345600160211114402758066034443600704230889785002002011159086560877044436006820000496325032050111332556800238444360000800002200450221601112770488105921013600100000021624752116011128059001059210136003220000849055018071111591582410592101360023200008813600160711113415285105921013600576000087395751707111132771651030044436008370000893145022120111605413510300444360083701988931450221201116068771)
 (.leaf 9824444360083710118818450221201113387816098244443600824000078062503212011159774640982444436007191102820429030120111351908509813444360084600008163330281201113691170105921033600828000067353302810011159427780923644436008030000648233028100111594206902772444360082400006306310291001115949640027724443600782000061573302810011185166380911544436000000000664145022100111362700810592444360079000008952430231201114918748080524443600366389061755751712111125574670800644436005670000570850020071111537383310592000360059200683872500200711118330897064924443600656000033105002007111157887721059208236005920000343750020071111397252607640444360071400006078475211011116388332)))
 (.node 2 (.node 1 (.leaf 8339444360024600006078475211011117182815105924443600782006889765501812011154998351059200036007040000663452519121111333417410592000360070401986702525191211115960055099794443600704000065865002012111158949730901444436006340000632652519081111588915610125444360074200006610600161211115496186095304443600704000064506001612111157872500914444436006640000890762515081111618726809471444360031200008830625150811116152689093654443600617000065257001212111159208401039444436006980000668062515121111387012309998444360076600006478575171211112890927105924443600790000067496001607111156395131052244436007140000784452519121111591217410144444360071400008743500201211116344339)
 (.leaf 10144444360071400007766525190711113486348105924443600714000090295251907111141298670496344436007140000865535027071111395938010592000360023200008942525190711113842705105920003600366000088515002007111188430271059200036004420000779252519121111582309010592000360060500007767500201211116144145105920143600431000076855002012111160740741059200036005170000718055018120111924263208610444360066425545943550180201113633118105922833600000000020474502216011127962661059210136000140000236243023160111816476210592101360051700004616500200711115673643105921013600283000083385751707111132327041059210136006130000882370012071111292723110300444360061700008969700120711113302816))
 (.node 1 (.leaf 10300444360086504408976450221201116239258105924443600837032089444502212011128541090982444436008280563839231029120111240533709824444360080316278143270311201112840724095154443600845000079603302812011159824320956644436005280000675937026100111546126309236444360019811136236410241001113246276091154443600018000064264502210011186810260911544436002210563681345022100111857149310224444360079900007795450221001115301919068274443600366319548536001610011150832320699244436005672800531255018100111524293506779444360068200005015500201001115884228105924443600682000050155002012111135652660748344436006010000604755018101111575610207457444360068213006011500201011115854733)
 (.leaf 8965444360016300006516500200711115680099040574443600682169859015002002111157272660851944436001600000602450020070111586530207347444360068200005901500201011116096161081304443600682000065925002010111159366900694644436002020000389350020101111621191107429444360027200004764475211011116188127061864443600486000064175751702011159728000765644436005170000645157517081111346082107549444360066400006478575171211118849300099564443600617000065595751712111159727681045144436004700000661060016121111571690809537444360047900006354600161211115839779095334443600429000074636001608111159778850901244436004050000782760016081111607320209971444360062700006676700121211114997819))))
 (.node 4 (.node 2 (.node 1 (.leaf 10087444360071900006611575171211113495752103624443600429000069135251912111158097761006744436007140000768550020121111613456110076444360077100007495450221211113658134105924443600714000077395251907111139883540496344436007140000902347521101111345377710592000360046700007912525191211112850898105920003600643069476265251912111133440771059201436006980000727350020121111612126110592014360060100006457475211001119400044086104443600682032066205251902111187394120861044436006693609843252519020111619290110078444360068232618849525191001115097350105922833600000000020654302316011127800271059210136002930000274652519070111825985110592101360061300009013650140711113510070)
 (.leaf 10592101360061700008948700120711113056264103004443600617000089697001207111133698231030044436008850812891243023120111610680810592444360077908128356290301201115553621098244443600793044182182703112011182813611059244436008074194828329030120111256352710592444360082530678406310291201115693072098454443600662000073783102912011157982580984744436008700000822033028120111559855309476444360085800008147350271001115776073096054443600113000079674102410011159002740927344436004500441711645022100111573906509912444360082400707630450221001116792025080264443600366000065806001610111159014890774744436005400000655957517101111599786109285444360042300007342600161011115868190))
 (.node 1 (.leaf 6223444360060100006559575170201115748106060594443600567000064166001602111163569460892944436006980000638365014121111606093010271444360033400006529600161211115700822101834443600196000068666001612111159042081025344436007770000653352519101111799685509700444360071408126269475211211115684764105924443600389000069605751712111156863701027944436007820000784255018121111590749410278444360071400007660450221211116057666105654443600686412276275002012111131976751059244436006980000903455018071111890492204963444360068900009037550180711116823960049634443600714000086553502707111137386690859044436006390321773952519121111604661410592014360070900005522500201211116451436)
 (.leaf 6192444360069812247091500201001113963725056644443600491000080675251902111160074280491344436006890000737055018020111587203505431444360068900007712550180201115081022085034443600627007173393302812011132594030830344436000050000240745022160111863285710592393360011300002427500201601115789993076954443600617070243165751707111185483791059210136001570000527357517071111276076810592101360061700009041700120711113033288105921013600617000089347001207111128947881030044436007140000887570012100111370090510592444360083716438957450221201113462176105924443600709102385543302812011157009841059244436007790322846431029120111820107810592444360080700008392310291201115282239)))
 (.node 2 (.node 1 (.leaf 10592444360082803228379310291201116156953100414443600461000077043502710011158051380901144436003680000723645022100111614378809667444360023000006385625151201115825888098934443600403000069076001612111155085201055444436007990000799260016101111433482310109444360079900007888600161211115738372105924443600766000079905002012111159409520857444436006171560531943023121111630830809554444360051733876170550181211116155158105924443600709000090275751712111142067820838944436007140000895750020121111370285608590444360061300006854500200211116331657043304443600714081768885501802011162899340599844436006980000836455018020111624705504638444360068900006547390250201116088925)
 (.leaf 4607444360063400004541330280201115990282049604443600682000064463502702011154376130782844436000180000691750020021111583416400000444360002602025614430230211113065021076954443600283000035014752107111127702380769544436000260000465143023071111321471910592101360002000004862500200711112775546105921013600627000088237001207111129462060988344436007770000873065014101111311006805151444360062300006224600160211116095419096094443600486000063896001612111166296530930044436006820000647465014121111605694508251444360036600005450600161211115447525105924443600698000090366251507111138217950496344436006980000904062515071111636334808389444360071403249013475211211113931293))
 (.node 1 (.leaf 8389444360070902028995500201211113580095083894443600704000075985002012011132422210859044436007090000428050020020111646960408590444360084400006167450220201118763695061924443600766000050084752102111162971430482344436008190202805747521020111599518705123444360054000007247370260201116739417045924443600686092774323902502011164007790468944436006821854500135027020111670687202892444360011300005858410241001113009547000004443600021000037574302310011127048570000044436000000000251645022160111575540810592393360033400002755550180701115871523076954443600005000046624502207111160857351017744436000030000510247521071111850933610592101360006900005730550180711112725654)
 (.leaf 10592101360061700008989700120711112514687098834443600682007385996751307111129795901059244436008360000898645022120111267855810592444360082800008541330281201112725605061134443600353000062246001602111164107380513244436007990000658060016021111650714409741444360035100006389600161211116189984105924443600709007390305501812111136027440496344436007140931871137026121111602957104963444360071400008653370261211116039681083894443600719000079315002012111190015130838944436006230073632447521021111288348308389444360086200004744450220201118679201105922473600819000053194302310011160827580429644436008240000490445022021111288484508622444360085800008604600161201115684546)))))
 (.node 8 (.node 4 (.node 2 (.node 1 (.leaf 4897444360077900008462430230201115794858051414443600682000078543502702011158395600815644436000040447556445022020111328572102892444360097700003656450221001112418235051254443600601000029584752107011159857131059210136000090000492347521071111593673510177444360000000005724450220711113073630102684443600000000087104502207111185166831026844436001340000881452519071111621068510592101360062700008950650140711116098416098834443600714000086186251507111124267010988344436008370074900665014120111859274709883444360083602058986575171201118540179105924443600825132785073302812011181564351059244436008280000852933028120111317751810510444360080300008559370261201116526788)
 (.leaf 10592444360079000009030550181211115535035105924443600709000090265501812111139356330496344436007040327762750020121111596438708389444360069827807740500201211116002900083894443600698000077155002012111160725660838944436006891419709150020120111903566908389444360062700006669475211201115983972083894443600714044763244752102011184333920838944436007140000474445022020111601769708389444360054000005440450220201118423652105922473600698044768134502210011131890830423244436007990591558547521021111666580205222444360035200005758450220211116165166041474443600839000084435501802011163647910448344436008484186842837026020111551136804911444360070900007187290300201115544543))
 (.node 1 (.leaf 4047444360082400004436310290201114794647041634443600839000080494102402011153265540478944436007421882737431029020111627431800000511360091700002615450221001112440491101774443600000000084884502207111126810341059210136007140000892362515071111597808209883444360071400008771625150711112636963098304443600837000089056751310111125999670965644436008360449871243023120111561877810084444360083702068818450221201115742543105924443600714000084513302812011160181531059244436007040000562833028120111581634910592444360063900008428370261201118082076105924443600704125183883502712011157508031059244436008070000847735027120111318049005493444360076600008818450220201114799080)
 (.leaf 10592444360007000008394675131601116049395105924443600782000090205251912111133373871059200036006170000726357517081111283084204963444360070412517626525191211118448950049634443600704000059725002012111185652700838944436007191332585841024121111591640108389444360068915105612500201201118401749091404443600709167156534102412011162918510838944436007660328586545022020111278300003833444360083200004516450220201112851772038334443600639007559804752102111161463950470044436006210000595845022020111863567004301444360062700004847475210201112821044058414443600365000066454752102111164004050550444436007900000565333028020111294236400000511360086200764089330280201116624271)))
 (.node 2 (.node 1 (.leaf 511360095400002516450221001112482607051254443600875000040065501807111156753630512544436006170000632260016071111237594409586444360021500007914430230711112774990105921013600232000088776001607111126124320948944436007090000887662515071111231715309489444360082809528950650141011116154085097434443600779000088655751710011126304070923044436004130840844847521100111804846210592444360074200007523450221201115616396105924443600836105777424502210011159334051058444436007770000859137026100111575498310592444360070400008342310291201115741248103544443600790020787093902512011180634861035444436006430000722841024120111578151110354444360061700008377370261201115631272)
 (.leaf 10592444360070407238421350271201113220452053044443600600000069393000002011133255681037844436007900723897655018120111519852110301444360062115188992625151201116540627105920003600771095263015002012011133794400984944436007710000639550020121111628665709849444360077700006359500201211118663695097764443600742254361434502212011161902090914044436007090462581147521120111314474504968444360054007236058450220201112976234049884443600714000052214502202011187260260498844436006640330632447521021111883874004988444360081900007028500200211116097240048724443600634000057775251902011159277840488544436006340076587855018020111601339105568444360060102077621575170201116278121))
 (.node 1 (.leaf 5489444360039500006854500200211116267707084274443600858000072323102910011159784750061944436009841057573947521020111619523700172444360097719516213675130201115720135027534443600858000073034502202011163776710215844436008580000457745022020111607198606782444360028200006935330280201116162718037204443600803000054603302802011161805980522944436006980077517427031020111633494705229444360099100004577450220501112390876095864443600334000080825251907111182939330958644436005170000840839025071111608087710592101360027300008688575170711112566032105925953600232000087634502207111123722921059210136007140000861862515071111602440909489444360071400008771625150711112446978)
 (.leaf 9220444360083704688948700121001115715320096974443600793020888237001210011180836050938444436002470000833857517100111791037810584444360070900008665450221001112113788105924443600824000089764502212011156372601048244436007040000860539025120111564858409832444360077107268763450221201115636348056034443600613000064506001602111164686961019444436006890844656255018120111621169710103444360071916886424475211201116402382105754443600771046865345002012011183230421059244436007423359901655018120111549077910234444360071415258781450221201112846550049884443600627182660294752102011125200890335244436008780000745535027020111598305302679444360096215258174450220201116111079))))
 (.node 4 (.node 2 (.node 1 (.leaf 444360098000007434625150201115770188042354443600929000043055501802011164883450274244436008700000752147521020111682268105229444360096200007997430231201112736681025724443600991000029444502205011182496300000051136009910000348945022100111577611605125444360094700003836500200701118238749051254443600617020979686001607111125705981059244436002210000878145022071111595229409200444360074200008845650141011116187767098374443600842000089386001610011157888711059244436007660000901655018120111591161210592444360027800008552430231201115770848050804443600643000085205251902011167290490482944436006820000835450020020111612949710592444360031800008519475211201115937052)
 (.leaf 10508444360039000008911550181201115781741105924443600623033389394302312011152861171017444436005280609884952519120111570846005750444360052800008566525190201115941241103504443600704020966826001612011160283710772944436004070000822860016021111583956401013444360099100008818450220201116391512030364443600872000078384502202011165531940124744436009440000787960016020111625913700775444360098200004807650140201115875419001884443600961000045176001602011166206640799944436008580730802045022120111666173602572444360099100003489450220501112274188051254443600978000041094502205011122644521059225136006170000752960016071111262876510592251360061700008757600160711112161726))
 (.node 1 (.leaf 10042444360028300008511430230711112130783104674443600664000089246001607111128003871046744436007090000889162515071111838795710235444360082400008990675131011116155432105924443600836000090356501410111162840371059244436008700000851833028161111430400409985444360078700008938600161011115273133077814443600000000076776251502011145696750684244436002030000796352519021111569896010592444360043700006682600161201115668176053524443600991000054084502208011151360460014344436009860000817445022020111580573201912444360086500007838450220201116284268028054443600925000045446501402011158518660360144436009790000707862515020111628532000188444360094308527745575170201113380757)
 (.leaf 7605444360085800007731450221201116578693056854443600858000055523302805011163004270385244436009910000474445022050111205304305125444360092900004559410241001112460765105922513600617000078796001607111121155941059225136002260000852845022071111573523610302444360022100008614450220711112143732104464443600232000086654502207111186773481044644436002260000876345022071111649096110592444360061700008014600161201115274582071114443600634000080325501802011160702811000644436003150000662670012100111501545705386444360066900006504600160211114964473060894443600558000065566251502111149849110311444436008870000743645022020111549503100343444360099109798528450220201115422448)))
 (.node 2 (.node 1 (.leaf 5754444360089009797781500200201118433497040524443600990000038114502205011119573370512544436009330000412041024100111175467510592251360027300005614430230711111661635105922513600055000058644502207111157358221030244436000640000601045022071111210686409866444360030700005894430230711112223606104464443600686000089765501807111124401551026044436007140000895162515071111322757309342444360071400008984625151011115936631098004443600071000073346751316011158349950504244436007040000746150020020111666033410171444360070400007911500200801114901158086874443600347000080325501802011159336260832744436002910000793255018020111620944309668444360061700006626700121001115066442)
 (.leaf 6379444360022100006159625150211115714183071204443600298000065566251502111155722730638744436008250000781643023100111279592608323444360068900005201410241201116113240064274443600853000062663302805011166491110405244436009720000440845022050111191283605125444360091600004577450220501117990023101964443600009000058644502207111120959411002844436000080000601045022071111190107309887444360032200005614430230711112702687104464443600477000085284502207111159428971052344436007040000890960016071111639276210534444360071400008937625150711116089684103684443600709000089076251507111163320010738144436004860000793255018020111586811306561444360047700007714525190201116503100))
 (.node 1 (.leaf 6286444360046700827598500200201116257114060654443600269000054554302302111160878221057344436006170000661552519120111553835906824444360054900006659575170211115836635049294443600858000059886001605011157033450239244436008580000658060016020111512987406772444360063700007645450220501115831046068714443600836120679344502210011186336840703244436008480000490445022100111650014203978444360084600006596370260201116612530034804443600888130484384502205011115698190523744436000280000272145022050111861228305125444360068900002407450220501111550263051254443600686000053585751707011159512191059225136001640000540845022070111577336410028444360006900006332450220711112144297)
 (.leaf 9866444360000200005477450220711118043128098664443600000000054774502207111158347910988744436000060000556445022071111873932710317444360017000005930450220711112264317105834443600533000089236251507111162379141059244436007140000895162515071111625675305937444360054000007075475210201112492989050254443600450099652514502202011159349930507744436005670000507845022020111621832205426444360056700005930450220201115990769008464443600858000037306001602011159009140259044436008350000481855018020111224405601230444360087200004764475210201115524141050334443600867000056854752105011148940490546644436008583970739245022050111525098707336444360083700005078450221001117675446))))))
 (.node 16 (.node 8 (.node 4 (.node 2 (.node 1 (.leaf 7692444360085800005408450221001116878406029914443600958008489314502202011154852290523744436007770000236243023050111157353110592000360082400002712370260701118527533105920003600824000056166001607011158449930899544436003490000533845022070111807088810196444360022100005788450220711116244855101964443600026000054084502207111159674641019644436000100000564845022071111180907009281444360000000005648450220711118388832090414443600004000053384502207111181361840944844436000260000540845022071111185277605548444360069800004662450220201112017804045554443600664000047805002002011162218330454344436007420000521450020020111220415104543444360071400004597475210211112698531)
 (.leaf 3888444360071900005029500200201116733055010394443600839000056735751702011114679040505944436008560000466757517020111151898004848444360085800004109450220501114992486059674443600845000056113102905011160936590335544436009250218732241024020111619377407245444360099100009006450220501116103693064964443600000000022004502205011115462260523744436008240000397750020070111163610608995444360034100005029410240701111554472099554443600100000060104502207111157921290942444436000170000556445022071111793511809424444360014400005648450220711115923972092814443600055000050784502207111119163281047044436002210000533845022071111217065710592444360022100008801450220711116534014))
 (.node 1 (.leaf 10592444360025700008916450220711115978839043464443600558050647805002002011167261370445344436007040000494450020020111841020204453444360077700005276475210201116169419044534443600714000053775002012011165174890454344436007900000539352519021111880557905380444360043100005794550180211116487920035924443600858000070786251502011116539000103944436008580000289960016020111605565405704444360085800004517600161001111551385067804443600693000068565501810011158842580644744436008750000729745022050111597147605739444360096200007574450220501115874037070314443600991000089934502205011157298060661244436000000000230745022050111215295705023444360091900002427410240501115928364)
 (.leaf 5023444360082405103952450220701118175258092814443600136000054084502207111157184440928144436001640000466245022071111194464310592444360022100008438450220711111873783105924443600232000088014502207111161254901059244436004000000883645022071111673005807776444360001800007172625150201116209174055974443600413000049145751702011118840690410144436008190000569050020021111601955106404444360080700005690500200511116565086081194443600384000086676251505011158263780434444436008250000451760016020111184230506396444360085800004496575171001111661407059874443600935000075475002005011161787760560944436009540000752047521050111586746210090444360000000006143450220501116086141)))
 (.node 2 (.node 1 (.leaf 5023444360082400004699500201001111638945105920003600413000051734502207011158858850904544436000600000547745022070111569853908961444360006900005338450220711115998942092814443600273000087104502207111159790830999144436002320000887245022071111180446710592444360022100008931450220711115861221105444443600221000086654502207111174522390583244436001830000552560016020111600737304616444360044200004749575170201111777544035364443600807000051275002002111155322780587744436002990000569050020021111606440306163444360085800008587650140101115930221064064443600183000075406251505011157430690578444436001040000434560016100111540527307894444360066400004496575171001117598202)
 (.leaf 7210444360083600005658550181001111779607079784443600824000079344502212011158183280628944436011590000636445022100111332556807670444360115900006678450221001113325568081124443600858000089145002005011169836560891344436008580000797250020050111400609307356444360085800007657500200501114613185062314443600824000081375002007011119791551059200036003660000847652519070111807052509810444360002400005864450220701115918352090904443600221000054084502207111182393061059244436002260000891645022071111166456210592444360029700009022575171201115780476043514443600467000046675751702011164109760589244436003490000850357517020111547672104981444360032000006926550180201115674248))
 (.node 1 (.leaf 6578444360013600007061600160501115714620058644443600018000044106001605011157434270667844436001480000425655018100111561016006678444360038400005358575171001117623256082034443600870000060115002010011174702570712744436008983769533845022100111504377108844444360097000006364450221001113325568064374443600858000073325002005011146287780785644436008580000779350020050111615905108150444360000000004904450220501116096620068674443600001000038114502205011156241850623144436008240000867847521070111173346410592000360070900008688575170701111643141096954443600024000060714502207111159651760909044436001920000578845022071111154091609050444360015700005338450220711111322819)
 (.leaf 9348444360034900005653410240711115624345102484443600221000088184502207111177603191026544436002210000878145022071111154756606359444360000000003650575170501115809108055944443600004000032486001605011161103510000044436003570000399352519100111587685606678444360058500005305500201001117660837075324443600871000059245251910011112275280758444436008580000771550020050111741990105322444360085800006592500200501115195333057254443600858000069175002005011150838730767544436000000000457745022050111592676105003444360099100004904450220501111892479105920003600865000079674102407011109950920910844436000480000533845022071111133835710502444360022100008573450220711115704749))))
 (.node 4 (.node 2 (.node 1 (.leaf 6669444360000000003875575170501115065450057194443600005000026645751705011156885780000044436002210000318355018100111770147900000444360057600003437500201001116124470000004443600848000061444502210011161662210639444436005590000614550020050111602971705063444360085800005029500200501116772334048684443600929000053055002005011171797800531144436009840000517345022100111154091509991444360082400008488450220701111388510105920003600257000088724502207111117135290999144436003220000838841024071111577124809991444360011300008383450220711115564006098034443600257000080984502207111112904511004944436003260000749545022071111526336606614444360000000003720575170501114890633)
 (.leaf 5337444360000000002664575170201116137625053214443600283000062625501805011159679400532144436008580000388647521100111778148307048444360083500006167450221001116149601075134443600845127566414502210011164455421031544436008370091889945022100111528928807066444360014800006507525190501115622693063204443600423000065075251905011150327300505444436000000000395245022050111070327505311444360000700002407450220501116014175053114443600904000026154502205011181174930531144436008390000505443023100111807958309991444360082400008476525190701111523709086564443600400000080375751707111115101910622444436000000000318057517050111577625804974444360000400002767575170201115547112))
 (.node 1 (.leaf 8544444360087200005102475211001115815849083354443600878000062984502210011159757540704844436008670000616745022100111804972507054444360088524426426450221001115642527078594443600183000057775251905011147433300444644436009300000622150020050111573544506601444360001500006147550180501115185960048844443600009000041094502205011110890200848844436001570000432343023050111611694008488444360034900004651430231001110647959084884443600698000087795501807111180708080965144436004420000871045022071111169509309151444360022100007934450220711116348467090094443600486000084346251507111111819040924544436001210000875760016090111612741306431444360000000004177575170201115201594)
 (.leaf 7558444360086700007953475211001111224278073214443600000000044765501805011141361170812844436000280000565755018050111500729401411444360110600005356475210501116101826038964443601042000060894752105011167667790530244436006430000474445022050111628376608488444360001700003656450221201111033023084884443600004000047444502207111158626651046644436002930000888250020071111104044506249444360022500003893500201001116249368089124443600123000086046001609011160143350598344436007900000525145022050111554767307500444360082500006234450220501116265764034614443600825000078305501802011164116770748844436006890000798562515100111526766104772444360000900003437500201501111138217)))
 (.node 2 (.node 1 (.leaf 6534444360001600002886475211501110732609065344443600467000049044502207011110111260848844436005170000540845022071111092780008306444360006900004827450220711115979388081294443600024000046624502207111165659770848844436001920000474445022071111131224610161444360030700008708525190711111381777097694443600400000085955751707111158143630589744436007900000517345022050111587469106576444360079000005724450220501116409823037814443601141000065834502205011161281590151844436011150000549847521050111437509704549444360082500004293525190501116472801065344443600011000062215002010011106805100759344436001860000470139025100111587517809497444360079300004636410240701116427761)
 (.leaf 10210444360019200005930450220711110957477104774443600157000062704502207111162061900820744436001640000482745022071111639588610007444360002600005173450220711116473036094824443600064000049844502207111112004560948244436002210000578845022071111141531504375444360099600006972500200501115530429066204443600226000050485251905011153248520664344436000000000386455018050111571365807399444360014400004717410241001117606237105924443600020000063044502207111169491141015744436000690000614345022071111653822809482444360022100008781450220711116583107094824443600221000057884502207111181320070967144436002210000586445022071111617973710154444360022100006143450220711116553582))
 (.node 1 (.leaf 1784444360114100007297450220501115847476046604443600920000060985002005011151355780705944436000000000447655018050111546931307414444360001700004744450221501110518373073994443600017000058654502212011103416960852244436006230000500039025071111033743710157444360022100008801450221011116602024105794443600232000089444502210111109825351030944436005920000545331029101111587520707089444360077200008468600160901116387476079384443600522000081255002009011161278330646044436008960000757050020050111558794507635444360001600004817550181001114940736066164443600000000040065501805011160408050709144436000000000386455018150111052490100000626360001700006776450221201117760494)
 (.leaf 626360013600007567410241001115756237073994443600656000046153302810011165051700949744436007710000547745022071111646430009560444360022100006010450220711110607739104074443600364000082674102407111161855910637844436007690000805860016090111689260806852444360077200008468600160901116387476077104443600522000081255002009011161278330855244436005000000823150020090111599894902495444360114100007523450220501116522523066314443600613000057095251905011146720320730144436000000000447655018100111547960506865444360000000003540550181501109915614000006263600017000069664502215011161595811059244436003220000878343023071111027396910270444360034600008355390250711116421620)))))
 (.node 8 (.node 4 (.node 2 (.node 1 (.leaf 6418444360076900008058600160901116892608063704443600769000080586001609011168926080707244436007720000846860016090111638747607918444360052200008125500200901116127833077914443600690000053384502210011151510830639344436009960000697250020100111524419309177444360000000005943550180501115796773076614443600000000041645501815011104689210455744436010050000720750020050111409304508976444360000000005794550180101116046883078744443600000000048995501810011157902130739144436000000000447655018150111611011107188444360001700004974450221501110240906071884443600714000050003902510011173742390988644436008350000572445022101111011610609886444360083500008872450220711116283965)
 (.leaf 9910444360083500008801450220711110709801061244443600668000051734502205011161422570611744436006680000517345022050111614225705561444360114100007235450221001114161807082654443600000000053405501801011144413940937244436000000000608655018010111576516207497444360000200004630525191001115991523071884443600183000043234302310011099342960718844436008250000482133028100110985651109886444360083500006207450221011110044657052064443601141000070915002010111148325280644244436011410000774050020100111697625906768444360114100007820500201001114729462068844443601141000078455002010011139811400673944436011410000782050020100111593482806991444360114100007873500201001115616576))
 (.node 1 (.leaf 5634444360114100006071450221001114257447093214443600000000060205501801011155140880777144436000000000481755018100111550816006562444360001100003328500201001116097616071884443600621000060015251910011098648390716744436011410000793252519100111478002206594444360114100007844525191001115967654060324443601141000076845251910011163433360676544436011410000787252519100111587328005934444360114100007656525191001115793117061464443601141000076855002010011152147960690144436011410000784550020100111666479906421444360097400005974450221001114628085008844443601141000054084502201011147500580763844436004770000606452519010111571067408078444360000000004981550181001115877221)
 (.leaf 6373444360005500003528525191001115929166078254443600000000050695501805011165491360938844436000250000541155018100111778603809388444360060500004899550181001117756834081404443600576000057244502210011161452560955744436002730000871045022100111628580909388444360011300008710450221001109626685101214443600026000086144502210111166742420968544436000260000843845022101111585138806354444360114100007766525191001116177011062024443601141000077395251910011158540130715044436011410000793252519100111640079607263444360114100007950525191001114827083075024443601141000079915251910011142135310916744436000000000699955018100111548224909569444360000000007370550180101115598252)))
 (.node 2 (.node 1 (.leaf 7882444360000000005069550180101115114281064144443600000000031675501810011150526350736044436000040000445652519100111606385307983444360007200005232525191001115612650078624443600777000057095251910011158040780944644436008240000878145022100111604533810257444360011600008763450221001115995334100204443600026000085734502210011154855520957544436000260000843845022100111581878209691444360002600008528450221011115856587060804443600668000051734502205011161422570850444436000000000653255018100111455890208538444360000000005478550180101114005806086554443600000000054115501810011156643140758244436000000000473655018100111598387408463444360000300006507525191001115620900)
 (.leaf 8520444360000000007925550180501115515603085574443600015000078055251910011159426620822944436004671448531943023100111650577508423444360061700008317450221001116160520103314443600033000087634502210011161234351055544436000260000881845022100111666230709646444360025700008684430231001109734345070014443600772000084686001609011163874760778544436005220000812550020090111612783310288444360000000006453550180101113663399088454443600002000057775251901011159438980748544436000010000464655018100111525588807817444360000200004801525191001115510163069664443600004000043195251910011151826400713044436000020000592452519050111576239306696444360019800006078475210501115836600))
 (.node 1 (.leaf 6549444360052800008133600160501115876815089004443600400000086676251510011165763980909844436002150000881550020100110989515110015444360000000006391550180101117353503092664443600000000060205501801011150737810889544436000000000557055018100111506745208037444360000000004981550181001115471395075404443600000000055165501810011157835090755544436000000000551655018100111517779107650444360002000004914575171001115969768090984443600148000050426251510011174785580909844436002470000586362515100111752006109098444360050500008876625151001116116382094024443600357000088136001610011089256510895244436004310000866762515100111580643410068444360070000008546370261201116427265)
 (.leaf 9164444360060900008521450221201116099104090104443600519000082614502210011159936860898644436004570000807145022100111605185904532444360022900004177575170201115201594044404443600339000055885751702011151626060790544436000000000506955018010111564521509158444360000000005794550181001115077265082604443600000000051685501810011157398510762244436000000000473655018100111568526207205444360000400005034525191001115840496073194443600007000052625002010011160123290771744436000150000550357517100110854099709325444360006000008482625151001116053890091624443600170000086676251510011161915320815944436001830000837462515100110896698008169444360046700008472700121001115999187))))
 (.node 4 (.node 2 (.node 1 (.leaf 9086444360000000005878550180501115961426105924443600000000065625501810011138518220902644436005190000826145022100111599368608812444360045700008071450221001116051859044344443600339000055885751702011151626060402144436005740000522145022020111557583108919444360000000005570550181001116299992095704443600000000060205501810011159256760812544436000000000506955018100111562153608510444360000000005340550181001115828440073774443600000000044765501810011152058650906844436000000000573055018100111579924609679444360000500006140525191001115348936092684443600000000060205501805011149020950970744436000000000608655018100111589270010204444360000000006357550181001114319226)
 (.leaf 9835444360000000006170550181001114059560105924443600634000015633000210011138848030398144436004310000669730002040111701493810592444360063400006697300021611115468750105924443600576000066973000210111138460551059244436002930000669730002101111552924410592444360061300006697300021611114580216105924443600627000066973000212111156665950000044436011410000901730002020111379927608874444360059200009017300020211115626307012964443600623000003983000015010874467080060344436006230000032045022150109000773400166444360062300000158450221501089935774003194443600623000005184502210010898269850351544436001980000029830000150108845664802290444360019800000084300001501088456648))
 (.node 1 (.leaf 2290444360062300000700300001501088456648003494443600623000001824502215011147784890000044436006230000034845022150111582613800018444360062300000205450221501115838653000004443600623000000644502215010912571020041044436001980000000000003150109094057600603444360019800000000000031501090607410003334443600198000000000000310011152484970031944436006230000046045022150111591930600573444360062300000741450221501091428086007884443600623000008674502215010910846870229044436006230000086730000150108946546901615444360062300001017300001501113325568022814443600623000010253000015011133255680238144436006230000100930000150111332556802142444360062300000952300001501113325568)
 (.leaf 2221444360062300001065300001501113325568034214443600623000015423000015011133255680034644436006230000048845022150109144804100094444360062300000437450221501091530070002414443600623000004144502215010916774560000744436006230000014845022150111559553000000444360062300000148450221501114968454008694443600198000000000000315010914335860016344436001980000000000003150109122897700163444360062300000085450221501091342575003334443600623000004704502215010918326730037944436006230000061445022150111459638802222444360062300001110450221501113325568017754443600623000010834502215011133255680163444436006230000103045022150111332556801853444360062300001017450221501113325568)))
 (.node 2 (.node 1 (.leaf 1740444360062300000781450221501090473092008934443600623000005854502215011133255680095744436006230000055730000150111332556801211444360062300000500300001501113325568034624443600623000015423000015011133255680022044436006230000071445022150109186401200015444360062300000047450221501091808224001794443600623000002524502215010920943660016344436006230000061445022150109244066900415444360062300000886450221501115449456004614443600623000008674502215010918918380146444436006230000026645022150111364088901877444360062300000406450221501090999241029374443600623000000873000015010909992410293744436006230000010130000150109099924101164444360062300000543300001501090999241)
 (.leaf 2829444360062300001074300001501090999241002964443600623000010764502215010931275700105044436006230000124545022150109230176100262444360062300000773450221501092680707004754443600623000006344502215011153826450084444436001980000000000003100109290522200026444360062300000336450221501092969184018924443600623000010254502215011133255680304044436006230000078145022150109150173903379444360062300000266450221501091501739022904443600198000000003000015011134826720229044436001980000000030000150111348267203077444360019800000000300001501113482672030774443600198000000003000015011134826720278944436001980000000030000150111348267202549444360062300000511300001501091501739))
 (.node 1 (.leaf 2549444360062300000741300001501113482672010004443600623000006803000015011133255680029644436006230000008045022150109295087500586444360062300000913450221501093516372015074443600623000014174502215010929021550046844436006230000052745022150109350241700297444360062300000178450221501093177669008584443600198000000000000315011156357060085844436001980000000000003150111563825000255444360019800000000000031501093179082018004443600623000007004502215010920035250337944436001980000000000003150109200352502290444360019800000000300001501113482672026524443600198000000003000015010920035250254944436006230000000030000150109200352501350444360062300000936300001501092003525)
 (.leaf 182444360062300000244450221501093652339002474443600623000001054502215011150572990110044436006230000124545022150109376834401412444360062300001417450221501093664573005274443600623000006804502215010936447440015544436006230000003345022150109396666100066444360062300000148450221501115059750002534443600623000001254502215010936594280337944436001980000000000003150111370064903379444360019800000000000031501113700649033794443600198000000003000015011137006490320044436001980000000030000150111348267203200444360019800000000300001501113482672031024443600198000000003000015011134826720310244436001980000000030000150111348267200223444360062300000193450221501094140918))))))))
 (.node 64 (.node 32 (.node 16 (.node 8 (.node 4 (.node 2 (.node 1 (.leaf 693444360062300001115450221501115119603003894443600623000011994502215011156637820030544436006230000114945022150109459039100496444360062300001180450221501115205246004254443600623000006144502215010942638730006044436006230000028845022150109449764202982444360062300001171450221501113325568027234443600623000011624502215011133255680238344436006230000073845022150111332556802014444360062300000727450221501113325568024534443600623000001714502215011133255680319244436001980000000000003150109300480203205444360019800000000000031501113482672032054443600198000000000000315011134826720337944436001980000000000003150111372257603379444360019800000000300001501113722576)
 (.leaf 3379444360019800000000300001501113722576032004443600198000000003000015011134826720310244436004860000000030000150111348267203102444360062300000000300001501113482672024334443600486000000003000015010930048020070944436004860000021030000150111576735200631444360010000000207300001501094081071012744443600100000000363000015011153771150159144436001000000012130000150111494557401147444360062300001083450221501115305303013704443600623000010654502215011151539300228644436006230000143545022150109512888702017444360062300001396450221501095707620004664443600623000002604502215010951677760040044436006230000047045022150109535824800758444360062300000774450221501114980145))
 (.node 1 (.leaf 425444360062300000172450221501094885168000004443600623000000334502215010944939110000044436006230000007145022150109437803401303444360062300000622450221501113325568014714443600623000001394502210011134826720304044436001980000000000003150111348267203040444360019800000000000031501113482672030404443600198000000000000315011134826720304044436001980000000000003150111348267203379444360019800000000000031501113482672033794443600198000000003000015011137454880337944436001980000000030000150111374548803379444360019800000000300001501113745488031024443600486000000003000015011134826720310244436004860000000030000150109350421701505444360048600000087300001501093504217)
 (.leaf 1087444360024700000299300001501094542036008924443600100000005733000010011141631100092244436001000000026030000150111623560801863444360010000000121300001501115506586010174443600215000007414502215011141519930068944436003490000020545022150111445100403303444360062300001479450221501115134341006104443600623000012454502215011155364360051544436006230000119945022150111398020200186444360062300000644450221501095209852005414443600623000000684502215010957260690045844436006230000005945022150109558371600352444360019800000000000031501095287220010114443600623000001264502215011134826720337944436001980000000000003150111348267203379444360019800000000300001501113482672)))
 (.node 2 (.node 1 (.leaf 3379444360019800000000300001501113482672033794443600198000000003000015011134826720337944436001980000000030000150111376937503379444360019800000000300001501113482672033794443600198000000003000015011134826720337944436001980000000030000150111376937502823444360019800000000300001501113482672028234443600198000000003000015011134826720299244436001980000000030000150111348267202814444360019800000000300001501113482672029594443600198000000003000015011134826720297944436001980000000030000150111348267203087444360019800000000300001501113482672032004443600198000000003000015011134826720229044436004860000000030000150111348267203077444360048600000000300001501113482672)
 (.leaf 3102444360048600000000300001501094002766009224443600072000005343000015010951844930320944436006230000108345022150111534768101772444360017600000700450221501114495403035044443600623000015354502210011147097680361444436006230000152445022150109552614101265444360062300000936450221501114041876005804443600623000008504502215011150249460045844436006230000000045022150109693271100616444360019800000311450221501113325568004484443600198000002604502215011133255680055744436006230000024245022150111332556800770444360062300000182450221501113325568016334443600623000000204502215011133255680164544436006230000002345022150111332556803624444360019800000000000031501094500412))
 (.node 1 (.leaf 3189444360019800000000300001501113482672031894443600198000000003000015011134826720318944436001980000000030000150111348267203200444360048600000000300001501113794223032004443600486000000003000015011137942230233444436004860000000030000150109450041201163444360010000000354300001501095353905018404443600623000014274502210011148754940140244436006230000104545022150111461753301061444360062300000992450221501115154337011804443600623000008054502215010960160590074344436006230000083145022150109669125600912444360062300000831450221501096336179004234443600623000005274502215011153265350068244436001980000000000003150111393812901063444360062300000335450221001094997115)
 (.leaf 3624444360019800000000450221501113482672022784443600198000000003000015011134826720232044436001980000000030000150111348267202450444360019800000000300001501113482672031894443600198000000003000015011134826720318944436001980000000030000150111382002103188444360019800000000300001501113482672031884443600198000000003000015011134826720320044436004860000000030000150111382002103102444360048600000000300001501113482672031024443600486000000003000015011134826720233444436004860000000030000150109499711501478444360062300000669300001001094997115018444443600623000013794502210010967778650090044436006230000055745022100111437323001197444360062300000583450221001114674204))))
 (.node 4 (.node 2 (.node 1 (.leaf 1325444360062300000629450221001115013313038024443600623000015354502215010965543260031244436006230000006745022150111612817100457444360062300000470450221501114954750001604443600623000006444502215011150657820088144436001980000000000003150109724095500338444360062300000183450221001095492837033084443600198000000000000315011134826720327244436001980000000030000150109549283702680444360019800000000300001501113482672023784443600198000000003000015011134826720218044436001980000000030000150111348267202409444360019800000000300001501113482672027554443600198000000003000015011134826720275544436001980000000030000150111348267202725444360019800000000300001501095492837)
 (.leaf 2581444360019800000000300001501095492837027814443600198000000003000015011134826720278144436001980000000030000150111387441502781444360019800000000300001501113874415027814443600198000000003000015011138744150278144436001980000000030000150111387441502781444360019800000000300001501113874415027814443600198000000003000015011138744150318844436003340000000030000150111348267203188444360048600000000300001501113482672031154443600384000000003000015011134826720320044436004860000000030000150111384675603077444360048600000000300001501113482672031024443600486000000003000015011138467560310244436004860000000030000150111348267202309444360062300000032300001501095492837))
 (.node 1 (.leaf 1625444360062300000529450221001098045929006584443600669000005004502210010971511400112544436008700000104545022100111500827603300444360062300001524450221501114573619032034443600623000015014502215011150018910291044436006230000150145022100111436227202506444360002400000992450221501097562402032984443600024000010174502215011154050320197744436006230000058925032150111521622201262444360062300000509250321501097101750005444443600623000007144502215011140085440038044436006230000083145022150111500381400129444360062300000345450221501113835322000934443600623000001794502215011156255150128344436001980000000000003100111332556802331444360019800000000000031001113325568)
 (.leaf 2533444360019800000028300001501113325568026074443600198000000303000015011133255680278144436001980000000030000150111348267203186444360048600000000300001501095987543031864443600486000000003000015011139029840313144436004860000000030000150111348267203200444360048600000000300001501113874415032004443600486000000003000015011138744150310244436004860000000030000150111387441502309444360048600000000300001501095987543018814443600017000004184502215011156976980104644436006270000045145022100109779564600595444360068600000451450221001115588089010734443600198000006144502210011149875810090344436004130000071445022100111582011101711444360083500001465450221001116027649)))
 (.node 2 (.node 1 (.leaf 2740444360087000001510450221001114496173015324443600623000010254502210011160380810154344436000240000077445022150109806761002371444360002400001009450221501099174501028704443600170000010304502210010987432700290944436000240000100945022150111441548202235444360002400001017450221501098040363029454443600024000010564502210011147374640265644436006230000064625032150109798501201575444360062300000538250321501114441647013684443600623000005792503215011161508770080944436006230000000325032150111503170801141444360019800000000000031501115067122031864443600486000000003000015011139324490318644436004860000000030000150111348267203200444360048600000000300001501113902984)
 (.leaf 3200444360048600000000300001501113902984031024443600486000000003000015011139029840310244436004860000000030000150111348267203102444360048600000000300001501113482672031024443600486000000003000015011134826720310244436004860000000030000150111348267203102444360048600000000300001501113902984023094443600486000000003000015011139029840230944436004860000000030000150109648119302309444360048600000045300001501113482672023094443600486000000003000015010964811930156744436006230000041430000150111390298400320444360062300000518300001501113482672011054443600623000007143000010010964811930103344436000170000040145022150111499900801462444360087000000622450221001115176828))
 (.node 1 (.leaf 1752444360077100000583450221001113778290012124443600828000005944502210011150820700127344436008350000055745022100109779081901559444360084200000516450220701098810220010464443600060000004814502210010977279350155944436001980000040245022100109792551801559444360027300000589450221001115739161015594443600148000005584502210010979626700028044436004130000058945022100109812310001014444360080700000952450221001115141544039234443600782000015474502210011145455750380644436007710000155145022100111374769304029444360002400001101450221001114506932033884443600024000010374502215011150818710326344436000240000104545022150109843123203007444360002400001025450221501098522140)
 (.leaf 2348444360062300000589250321501114953396026564443600623000006642503215010993281580250244436006230000067525032150111517751502502444360062300000604250321501114711093016184443600623000006262503215010989067430161844436006230000036025032150109826553200251444360062300000057250321501114869562029534443600257000000353000015011133255680278144436004860000000030000150111396279602661444360048600000000300001501113962796031864443600486000000003000015010969737510327744436004860000000030000150111348267203137444360048600000000300001501113482672031834443600486000000003000015011134826720317844436004860000000030000150111348267203200444360048600000000300001501113932449)))))
 (.node 8 (.node 4 (.node 2 (.node 1 (.leaf 3102444360048600000000300001501113932449005644443600623000002073000015010969737510081644436000170000040145022150111527801001469444360001700000068450221501115797126018374443600017000003794502215011145163180198744436008700000060845022070111510598201188444360087000000500450221001115145967015594443600357000005944502207010989558590155944436005050000051645022070109891139101559444360035700000805450221001098738456015594443600413000005584502210010989594050100744436003220000061445022100111599104700835444360062700000831450220701099185497010364443600870000009924502210010987059330214544436008700000099245022100109963254903288444360002400001045450221001114737758)
 (.leaf 3473444360002400001017450221001115111908032584443600024000009784502210011139908340294644436000240000099245022150111457830502915444360002400001009450221501116980052028004443600024000008674502215011146231810178044436006230000039225032150111442277201320444360062300000223250321501114946703010654443600623000000062503215011152980190266144436004860000000030000150111399401103186444360048600000000300001501113482672031864443600486000000003000015010974651780320044436004860000000030000150111396279603102444360048600000000300001501113962796031024443600486000000003000015011139627960310244436004860000000030000150111348267202396444360048600000000300001501113994011))
 (.node 1 (.leaf 2396444360048600000000300001501113994011013414443600486000000003000015011134826720113344436006230000002930000150111348267200652444360062300000427300001501113325568008594443600017000000314502215010993161050166944436000170000018245022150111575559601413444360001700000510450221501115328738017974443600017000007744502215011156416350201944436008700000059445022070111495731701635444360087000000867450220701098967964015594443600273000005294502207010997795440155944436002260000086745022070109918735702400444360021500001300450220701115634167024724443600413000014274502207010991072230200344436006130000141745022070109925061301051444360087000001009450221001116047908)
 (.leaf 3847444360087000001559450221501114386126038554443600870000015564502215011145201730389244436008700000155945022150111350531101423444360062300001357625151501114916826026674443600623000010304502215011146202080318644436004860000000030000150111402607903186444360048600000000300001501097955438032714443600486000000003000015011134826720324844436004860000000030000150111348267203200444360048600000000300001501113994011031024443600486000000003000015011139940110239644436004860000000030000150111348267202396444360048600000000300001501114026079016014443600486000000353000015010979554380160144436006230000019530000150109795543800646444360001700000427450221501115704726)))
 (.node 2 (.node 1 (.leaf 841444360001700000146450221501116131057010984443600017000007414502210011155245490248544436004130000095245022070109988152002366444360041300000850450220701115778220023664443600357000008504502210010997540630155944436000080000077445022100109943612301559444360003300000614450221001099307381015594443600870000014174502207011154892580155944436008700000130045022070110025420002067444360087000001354450220701099920314016784443600623000015066251510010994146150164844436006230000135050020150109979360503075444360002600001017450221001099783511019984443600026000009675751715010996040560224044436000260000103957517150109933339002837444360002600000873575171501114345876)
 (.leaf 547444360062300000841600161501114912340002224443600623000006056001615011148029250043044436006230000108860016100111520422403186444360048600000000300001501098444491032494443600486000000003000015011134826720326444436004860000000030000150111348267203200444360048600000000300001501113482672032004443600486000000003000015011134826720320044436004860000000030000150111348267203200444360048600000000300001501113482672032004443600486000000003000015011134826720320044436004860000000030000150111402607903200444360048600000000300001501114026079032004443600486000000003000015011140260790320044436004860000000030000150111402607903102444360048600000000300001501113482672))
 (.node 1 (.leaf 3102444360048600000000300001501113482672031024443600486000000003000015011134826720239644436004860000000030000150111405898500405444360062300000401300001001113325568004804443600623000004013000010010984444910078344436000170000051845022150109989673500841444360001700000589450221501100162360024614443600486000009784502207011152860210190844436005490000089845022070109997496402366444360087000000886450220701115558156023664443600656000008674502207010997692930155944436008700000080545022070109974476501559444360087800001417450220701099750249015594443600932000013544502207011155311620316344436008700000147945022070111610282403510444360087000001551450221001114283109)
 (.leaf 3647444360087000001542450221001113717323005354443600623000015066251510010997860300164844436006230000147362515100109977519002531444360017600001461550181001115553137019974443600032000010444752110011145168370220344436000260000100945022100111408136602204444360006400001043500201001114348664016234443600384000010956251510011144953800198344436006230000106545022150111427511202672444360062300001065450221001099686944010484443600623000006056001615010997470010202344436000260000096757517150109998162902438444360002600001003575171501099737537028944443600026000009045751715011147169940038544436000260000061657517150110001394000203444360062300000314600161001114507183))))
 (.node 4 (.node 2 (.node 1 (.leaf 127444360062300000340600161501115229661002634443600623000001806001615011149775810118544436004860000036630000150111332556803186444360048600000000300001501113482672031864443600486000000003000015011134826720318644436004860000000030000150109891997502396444360048600000000300001501098919975023964443600623000000983000015011134826720060144436000170000040145022150109962521000724444360011600000578475211501100549035015784443600870000008864502207010998883810196144436007190000088645022070111573801302366444360087000000850450220701116304627015594443600870000014534502207010998872840155944436008700000139645022070110021123402067444360096700001379450220701115928878)
 (.leaf 1643444360096400001379450220701115736905020674443600870000013794502207011158409950269144436008700000141745022070111610846901861444360087000001443450220701116330191028954443600450000013544502207011002147810196844436008700000155645022100111496933101610444360087000001563450221001114247475024184443600870000015634502210011136459260036644436006230000142262515100109990272900535444360062300001514625151001114980701016484443600623000015046751310011149613080175944436006230000111462515100111484075401721444360062300001017450221501113922325020114443600623000010304502215011148345630111244436006230000111045022150111495259003291444360062300001162450221001114851973))
 (.node 1 (.leaf 2710444360062300001110450221001115520508030634443600623000011284502210011146189860122444436001130000102760016100110023915703314444360002600001098575171001114513908024794443600026000009865751715011154821080252944436000260000107157517150110040827100845444360002600000417575171001100502157007064443600026000007795751710011001828740045144436003410000078860016100109991929700561444360062300001474600161001114419585000004443600623000002376001615011152176800361044436004860000000030000150109916324203610444360048600000000300001501114127246030374443600486000000003000015011134826720303744436004860000000030000150111348267202396444360048600000000300001501114092712)
 (.leaf 3037444360048600000000300001501099163242006514443600486000000233000015010991632420103244436000170000051845022100110003802400765444360017000000562500201001100491640025384443601025000015184502210011149421260221044436008620000095245022070110034953501870444360080300000468450220701100611146023664443600870000013794502207011001499170236644436008700000142745022070110030103501559444360087000001427450220701100997795015594443600870000013544502207011002872160236644436009890000144345022070111511995301643444360087000001379450220701100605287016434443600932000013794502207011007679060260144436008700000143545022070110058422902601444360087000001427450220701100151046)))
 (.node 2 (.node 1 (.leaf 3006444360058500001396450220701100384068020424443600865000015594502210011001392090175044436008700000130045022100111404148400431444360062300001505650141001100337125009744443600623000015037001210011150789180097044436006230000100970012100111466544401041444360062300000886450221001114833230016574443600623000010094502210011154718660206544436006230000103045022150110061325801672444360062300001134450221001114173682036834443600623000011624502210011142835180205144436006230000105160016100111472214301103444360062300000647600161001115147158019354443600026000010035751710011151449400301944436000260000114857517150110019607102918444360002600001080575171501115730739)
 (.leaf 1292444360005500000589600161001100420167006184443600623000008606001610011006640490030044436006230000084160016100111516235800181444360062300000387600161001114375374000004443600623000001436001615011006792910165944436004860000008430000150109940584902431444360048600000000300001501114162571036104443600486000000003000015011134826720361044436004860000000030000150111416257103610444360048600000000300001501113482672036104443600486000000003000015011134826720361044436004860000000030000150111416257103610444360048600000000300001501114162571036104443600486000000003000015011141625710361044436004860000000030000150111416257103610444360048600000000300001501114162571))
 (.node 1 (.leaf 3037444360048600000000300001501113482672030374443600486000000003000015010994058490303744436004860000000030000150111416257103037444360048600000000300001501099405849003444443600486000001793000015010994058490133844436000170000057345022100110098031501903444360034100000798525191001101461047028884443600942000015184502210011005992980246644436009580000151045022100111583227101582444360094800001490450221001100905602040044443600870000011344502207011154773400282844436008700000139645022070110105046402366444360087000001443450220701100684908023664443600891000014434502207011006719840236644436010010000144345022070111621047202366444360098300001479450220701116560119)
 (.leaf 1559444360096400001435450220701101274844023664443600891000014434502207011007430180164344436008670000147945022070110058107901643444360086500001443450220701100630748016434443600947000014354502207011010083500171744436008490000051645022070110055959101717444360085800000500450220701115841669017174443600856000005004502207011157659950260144436008700000093645022070110062245302601444360087000001435450220701100643707030064443600870000014704502207011005396830274644436008700000143545022070110088687201588444360019800001115450220701115965687015884443600839000012834502207011161508270308944436008700000145345022070110116374600707444360062300001263550181001101323602))))))
 (.node 16 (.node 8 (.node 4 (.node 2 (.node 1 (.leaf 1210444360062300001019650141001114923715015224443600623000010444752110011158799150173144436006230000103045022100110086331101702444360062300001065450221001115586617017314443600623000010744502210011006180650228544436006230000107445022100111577297002657444360062300001092450221001100847309019564443600623000011464502210011145639740343644436006230000114645022100110028652903253444360062300001153450221001114156321023674443600026000010395751715011007086170280944436000260000100357517150111654285100760444360024700000821600161001100982415003184443600341000008946001610011157012840000944436006230000040860016100111615601800000444360062300000237600161501101024395)
 (.leaf 2034444360048600000036300001501113482672020344443600486000000003000015010996477810243144436004860000000030000150111348267203610444360048600000000300001501113482672036104443600486000000003000015011134826720361044436004860000000030000150111348267203610444360048600000000300001501114198670036104443600486000000003000015011141986700361044436004860000000030000150111419867003370444360048600000000300001501114198670007934443600623000002253000015011134826720177644436006230000130030000100109964778101944444360025700000840500201001116213364020714443600384000009335251910011007655800221944436010010000146545022100110107223302956444360090400001490450220701100893841))
 (.node 1 (.leaf 2598444360094800001510450221001115868911032824443600878000014704502207011015482320365244436008700000146545022070111510220703672444360087000001510450220701115388218023664443601001000014174502207011010603390236644436009420000142745022070111614452301643444360084500001453450220701101309262016434443600845000005164502207011007530560164344436008450000074145022070111552572601717444360086500000557450220701100958415024454443600853000008504502207011010234700274644436008700000141745022070111607098405126444360006000001115450220701100975848051264443600634000008504502207011006407090117744436008360000100945022100111572242602856444360087000001435450220701100849770)
 (.leaf 3265444360087000001490450220701100931941037104443600870000015104502207011151911660305644436008700000147945022070110116316402966444360087000001542450221001114291662013594443600623000011456751310011157539030202944436006230000108345022100111601769103195444360062300001118450221001115291917020294443600623000011184502210011006240530238744436006230000111845022100110059015200730444360062300000627600161001100775363016804443600623000006276001610011020813570292444436000260000106257517150110111690302008444360002600001003575171001101319643012804443600623000005246001615011008591480000044436006230000037260016100111620371202034444360048600000072300001501099889017)))
 (.node 2 (.node 1 (.leaf 3610444360048600000000300001501113482672036104443600486000000003000015011134826720321844436004860000000030000150111348267203037444360048600000000300001501114198670030374443600486000000003000015010998890170178544436004860000000030000150109988901703037444360048600000000300001501099889017001844443600486000001253000015010998890170010644436004860000002430000150109988901703549444360062300001427300001001099889017017094443600623000004363000015011133255680154244436006170000100852519100111507218901387444360061700000884525191001100954071027494443600617000010545251910011011093780355744436010010000147945022070110107718202219444360087800001427450220701116113813)
 (.leaf 3778444360087000001453450220701101385102022244443600870000014174502210011148572010350244436009210000147945022070110120479202827444360100100001435450220701116130479034304443600870000014704502207011152333960292944436009780000139645022070110159898502366444360106400001465450220701116052546023664443601096000013794502207011017564670164344436008450000144345022070110096681101643444360028300000831450220701100939288017174443600283000008314502207011005986370171744436000110000086745022070110092363201717444360084500000916450220701101002938024454443600845000010834502207011006871700000062636008460000133945022070111570362110592411360084500001354450220701101082271))
 (.node 1 (.leaf 626360085800000898450220701115710427051264443600048000011494502207011015096460177444436008070000083145022070110105694003776444360087000001518450220701114736574039284443600870000015474502207011008519210302444436008700000152445022070111502920501665444360087000001518450221001117811060028564443600870000014274502207011013127330305644436008700000152845022070110064444502550444360070400001547450221001100862557001134443600848000015564502210011151671600000044436008480000155645022100111399237401754444360062300001030450221001101848776020294443600623000010564502210011013527540171844436006230000105645022100110131352603243444360062300001118450221001114451767)
 (.leaf 1146444360062300000846525191001101372305003564443600623000004726001610011013305560200844436004500000099060016100110127792500552444360062300000627600161001115277020012804443600467000006766001610011015268650208744436006230000064760016100111565841200996444360062300000564600161001101030589009454443600623000006276001610011011803790007544436006230000011260016150110147893102259444360048600000000300001501114273125036104443600486000000003000015011134826720069544436004860000001630000150110012953800100444360062300000060300001501113325568022554443600623000004363000015011133255680364244436008700000143545022070110130618403766444360087000001479450220701102446655))))
 (.node 4 (.node 2 (.node 1 (.leaf 572444360087000001524450221001114867973032624443600978000014434502207011162497510282744436010270000147945022070111601847702366444360084500001427450220701101513824023664443600997000014174502207011017995220236644436008580000058345022070110137352401643444360084500000583450220701101339940016434443600283000006154502207011018252840164344436000180000051645022070110127944701717444360001300000516450220701114821833024454443600144000004684502207011011947550244544436008450000094243023070110124370202445444360084500000992450220701101197878105924113600845000004673902507011013731371059241136008450000080545022070110134674705126444360084500000898450220701101383053)
 (.leaf 5126444360084500001038450220701101322682005684443600431000006144502207011013522200066044436008700000074145022070111500471502630444360086500001396450220701101624318028564443600858000014654502207011016568320290744436008700000145345022070111566499601951444360087000001535450221001115687918000004443600848000015474502207011159667590000044436008480000154245022100111567814700000444360084800001518450221001101740367014144443600623000010094502210011150468880175444436006230000103745022100110155605601609444360062300001037450221001115799367016094443600623000010744502210011155503220160944436006230000104545022100111627042402317444360062300001056450221001102111407))
 (.node 1 (.leaf 2314444360062300001045450221001114469609004724443600623000006276001610011018039150262344436000570000109760016100111528510801319444360032200000539600161001115063998003094443600623000004406001610011158280830030244436006230000047260016100111584761201280444360062300001155625151001101402811000754443600623000000396001615011009990090010444436006230000038760016100110196767500000444360062300000086600161501101554168036104443600486000000003000015011134826720361044436004860000000030000150111348267202948444360048600000000300001501113482672029484443600486000000003000015011134826720294844436004860000000030000150111348267201785444360048600000000300001501100369329)
 (.leaf 639444360048600000041300001501113325568022344443600623000001373000010011133255680418544436005580000261755018070111524952003739444360068200003571550180701114625904036394443600871000014794502207011016210680330544436008700000150145022070110265711403247444360087000001427450220701115536446033224443600948000014434502207011020840730294744436007930000147945022070110217076803255444360087000001427450220701102290273023664443600928000013964502207011021206420164344436000260000039545022070111593512201643444360002600000383450220701115899568016434443600144000008314502207011013890250164344436000160000045145022070110144502202445444360002200000451450220701101525328)))
 (.node 2 (.node 1 (.leaf 2445444360016400000500450220701101582788024454443600845000008493702607011016190161059241136008450000084439025070110167958105126444360084500000770390250701116088745051264443600009000009014502207011014878700056844436001570000040145022070111601432901426444360068600000680450220701115945973017834443600592000012304502207011156140050326544436006430000142745022070110221379602675444360070400001321450220701101268757026754443600686000011994502207011162332330267544436008240000128345022070111581989102675444360084900001396450220701102276879027224443600870000014354502207011161583590369944436008700000151845022070111521062203463444360087000001542450220701115822005)
 (.leaf 110444360084800001417450220701115309731000254443600848000014654502207011018051040002544436008480000146545022070110180021400083444360084800001379450220701101993451000004443600836000007224752107011149901960000044436008480000132145022070111474601300162444360084800001396450220701114980788000614443600848000013964502207011018417300232644436008190000136141024070110218101501190444360062300000886450221001115281425016384443600623000010174502210011021551890131044436006230000097845022100111542216701609444360062300001030450221001102227271013314443600623000010304502210011017708420276944436006230000111845022100111433796300446444360062300001088600161001101696026))
 (.node 1 (.leaf 668444360062300000554600161001115578157008714443600623000005796001610011016316520010744436006230000050960016100111631617600000444360062300000387600161001101901470003304443600623000001933000010011133255680039944436006230000034530000100111332556803610444360048600000000300001501113482672036104443600486000000003000015011134826720337044436004860000000030000150110060836902948444360048600000000300001501113482672029484443600486000000003000015011143504770294844436004860000000030000150111348267202948444360048600000000300001501113482672029484443600486000000003000015011143504770202444436004860000000030000150111435047700553444360048600000019300001501114311447)
 (.leaf 674444360048600000009300001501100608369028644443600176000021815501807011150730610422144436006890000399455018070111545266005809444360068900004554550180701101916128071724443600709081950695501810011149137740745244436007140000539352519100111436505107595444360071400006874525191001114495255029724443600617000010085251907011158079150424644436008820000153545022070111479644303639444360087200001465450220701102722714033054443600870000014794502207011164855320275944436008780000147945022070110238439003118444360087000001396450220701115709425030124443600953000014534502207011160928840332244436010270000144345022070110296893503322444360087000001470450220701116062184)))))
 (.node 8 (.node 4 (.node 2 (.node 1 (.leaf 3322444360087000001427450220701101995511023664443600198000003834502207011164812861059238336001830000024445022070110209297101643444360002600000357450221001101560746016434443600026000003224502207011015539210164344436000260000071445022070110136338801643444360018300000680450220701101569224016434443600793000008674502207011016335280164344436008450000088645022070111512962901643444360022600000451450220701101858773016434443600002000004164502207011017575150318144436008450000086143023070110165461810592411360084500000835410240701114987118051264443600845000009364502207011018812220512644436000010000051845022070110195386501783444360002500000558450220701101734506)
 (.leaf 444360001000000956450220701101844747000004443600704000010764502207011017750870170744436000260000098745022070111589950300000452360000900001010450220701115431940026754443600413000011994502207011155421830267544436001980000123045022070110225895500000452360027300001180450220701101601397013724443600450000006154502207011018434020121744436008650000152445022070110192938502140444360082800001556450221001113804243008624443600870000005004502207011150900810118744436008700000123045022070111480179400000444360084800001300450220701115804668000004443600848000012174502207011019565420000044436008480000118045022070110224396500000444360084800001180450220701116028575))
 (.node 1 (.leaf 444360084800001261450220701115837791000000003600848000012614502207011021770940000044436008480000147945022070110231816600005444360084800001427450220701115513864000124443600848000013964502207011157718380000144436001760000017552519070110245254000196444360013600000175525190701115007108024254443600825000014264102407011018043970199944436006230000141745022100111578813101670444360062300000805450221001102117410011824443600623000008984502210011149323840194344436006230000099245022100111546562002102444360062300000936450221001116404272017584443600623000010254502210011026855420133744436006230000101745022100110219052101864444360062300001030450221001102416092)
 (.leaf 1400444360062300001056450221001102135187024754443600623000011184502210011149593190078044436006230000065560016100110222399800295444360062300000464600161001101958381010574443600623000005696251510011022163820095244436006230000100760016100110221563601119444360062300000928600161001115365056000004443600623000002316001615011019895190361044436004860000000030000150110084664102948444360048600000000300001501114390197029484443600486000000003000015011008466410202444436004860000016930000150110084664103337444360002800001621550181001115333250026954443600207000019815751707011160242530470444436006890000426355018070110273571600000444360068900004238550180701101866966)))
 (.node 2 (.node 1 (.leaf 444360068900002799550180701101872474074414443600704000052495501810011159340140734944436007090000534055018100111759007402322444360040000000559550180701102607784022504443600898000009775251907011024884580319144436008780000147945022070110316491503487444360087000001470450220701102277531033424443600870000014434502207011161926330388344436008780000151045022070111484377403947444360088500001518450220701115033873037954443600875000014174502207011024408930332244436008700000147045022070110192365202947444360087000001427450220701102235044029474443600845000005944502207011023639951059238336001700000014045022100110168803801643444360002600000244450221001102076930)
 (.leaf 1643444360002100000322450221001114724222016434443600026000008314502207011020266700164344436008450000089845022070110272612101643444360027300000516450220701102180408024454443600742000004514502207011019396030478344436008450000046845022070110224448203181444360084500000451450220701102356078031814443600845000008614302307011020382881059241136008450000077233028070111536299205126444360084500000783370260701102036323051264443600845000012454502207011023301300512644436000010000036745022070110242035201783444360002500000573450220701102020386017834443600845000013394502207011161370400000044436000130000114945022070110197519100000444360018300000987450220701102155477))
 (.node 1 (.leaf 452360001400001199450220701116218752000004523600020000010384502207011021594660000045236000070000121745022070110221823200000452360027300000898450220701102256559000004523600613000005674502207011157362580000045236008450000083145022070110220748801372444360055800000898450220701102593598013964443600853000014354502207011027758090285244436008370000154245022100111529224200649444360005700000383450220701115794219013024443600322000004024502207011159421300093144436006210000124545022070110219951303917444360080700001490450220701114535580017894443600357000010764502207011020857090155044436000690000111545022070111580137700500444360057600000383450220701101803809)
 (.leaf 843444360087000001443450220701115212247011214443600870000014434502207011155095360000044436008480000119945022070111493464800000626360052800000728500200701102288972000000003600848000013004502207011161125140000000036008480000121745022070110229106900000444360083700001186475210701102262088000124443600024000005715501807011021494250001244436000240000031555018100111583813100000488360002400000206550181001116092395000004443600024000003155501810011158397060036544436000240000048755018070110231966901492444360002400000588550180701102244055014564443600157000013025501807011025137580188444436004000000351850020070111419438200880444360080300001905410240701102228384))))
 (.node 4 (.node 2 (.node 1 (.leaf 880444360070900000893430230701116475762105922953600623000014534502207011149585950266244436006230000141745022070111573185501670444360062300000952450221001116182019008294443600623000009784502210011157172860202644436006230000102545022100111553903402082444360062300001017450221001114536885012024443600623000005646001610011022926400067844436006230000057960016100111555822302559444360002600001127575171001102016412003374443600623000004646001610011153091140085044436006230000052862515100110255776601895444360062300001007600161001102110729011194443600623000009746001610011023016780015744436006230000054160016100111598745800285444360062300000499600161001115288367)
 (.leaf 109444360062300000541600161001115801613028654443600486000000003000015011134826720294844436004860000000030000150110108412602293444360048600000982300001501113482672019634443600486000011153000015011134826720123544436004860000117430000150111332556804648444360063900002987550180701115437393034114443600028000013315501807011158358501059204436000280000380862515070110199464500000444360068900004677550180701102433977105924443600689000052125501808011027177970633644436007140000527552519100111582163402941444360070400001415600160701102811972029414443600709000010076001607011161517710225044436008900000099152519070111600873304139444360089600001490450220701114594165))
 (.node 1 (.leaf 2751444360087000001453450220701115278166034064443600877000014434502207011157622100389044436008900000144345022070110261562202947444360086200001339450220701115692138029474443600890000014274502207011155686020294744436008560000042645022070110232976510592383360002600000181450221001102308355000004443600016000002184502207011145414250164344436000220000021845022070110205965101643444360000700000296450220701115694351016434443600019000003834502207011035323200164344436000110000086745022070111595725804783444360084500000966410240701116169180047834443600845000009654302307011021895560478344436008450000089845022070110239909703181444360084500000587350270701102378114)
 (.leaf 10592411360084500000701370260701102610003051264443600845000007673502707011021855070512644436000570000022945022070110242152000000457360002600000401450220701102710049000004443600627000010384502207011021256540000045236000060000098745022070110244351500000452360004800001453450220701116101591013724443600845000014174502207011029757890137244436008450000127133028070111531580501217444360084500001465450220701102690283006494443600837000005834502207011157426150064944436000260000026745022070110221555900666444360002600000857450220701102259653011934443600835000011994502207011026973440020844436008480000123045022070110267519200086444360027300000706525190701115396676)))
 (.node 2 (.node 1 (.leaf 626360013600000663525190701115002300000006263600136000004105251907011158927200000044436000240000048755018070111512084300011444360002400000238550180701116405852002384443600782000006484752107011024882990000044436006390000146350020070110163605400000444360048600001441500200701102083099008804443600623000013794502207011151861690242544436006230000083145022070111613551410592295360062300000867450220701102679010016704443600623000008864502210011032621410237644436006230000099245022070110250361601925444360062300001009450221001115864465015924443600623000007106001610011157119960183544436006230000070457517100111504751102997444360002600001071575171001114324825)
 (.leaf 136444360062300000408600161001115454683017034443600623000010696001610011025350460000044436006230000041960016150111523778402497444360062300000529300000701113325568023984443600486000000003000015011013208080361044436004860000000030000150110132080803370444360048600000000300001501113482672032184443600486000000003000015011134826720315244436004860000000030000150111348267202470444360048600000000300001501101320808020494443600341000008863000015011013208080138544436000060000134030000150111332556801117444360000600000858300001501113325568052914443600540000041775751710011137013950438044436001341003308855018100110288659910592044360002800001331550180701102234967))
 (.node 1 (.leaf 10592044360006900004427600160701102146978016164443601082000032525251908011023114060000044436010240000627252519080110215882910592420360094000003816525190801102187860105924443600232000041606001608011025636710633144436006390000534055018080111611084506501444360068905025730550180801115383134000004443600689000058785501807011023803710659044436007140000537352519070111612919407418444360071400005487525190701115466672024394443600656000043135251907011147081480228244436010860000150145022070111511589203427444360100200001463500200701102721004034174443600856000014395251907011023549120287144436009500000143150020070111535484502941444360063900001448550180701103021652)
 (.leaf 2941444360065600001486575170701103050755022504443600621000014615501807011026565520225044436008070000100450020070111590896701580444360077100000451450220701103210442020024443600872000014274502207011032802930319144436008700000143545022070110334452002965444360089800001443450220701115829142034544443600870000013794502207011146600910406244436008720000147045022070110304777104219444360087000001542450220701114606910038904443600870000014904502207011165781780294744436008780000141745022070110275679800000505360013400000296450220701102370499000004443600026000002444502207011157865320164344436000640000039545022070110251681901643444360084900001390430230701103512246)))))))
 (.node 32 (.node 16 (.node 8 (.node 4 (.node 2 (.node 1 (.leaf 4783444360084500000746330280701102600562051264443600845000008354102408011027369650512644436006270000128345022070110297224905126444360002000000172450220701102919560002384443600026000003674502207011162401350000045736000190000058945022070110250772800000444360083200001038450220701116176874000004443600005000009014502207011027542780000045236000140000040145022070111606685600000452360084500001396450220701103240388000004523600845000013004502207011029417630000049136006860000130045022070110305023000000355360084500001444430230701103139121012174443600845000014654502207011155735810000044436000280000038345022070110279566900000444360001800000244450220701115873517)
 (.leaf 931444360002600000296450220701115085843011104443600771000012174502207011029674480108144436008390000038345022070110261370401081444360002600000296450220701102875962006664443600026000002184502207011161142250007844436000260000060945022070110264600400000596360032200000901450220701103459415007874443600848000009164502207011146443840010244436008480000086745022070110291995900086444360002400000315550180701102695105000004873600024000002065501807011028475170000048736002150000026952519070111631856000000488360068600000201475210701116045243000004883600832000003474752107011160038870000048836008480000043245022070110276551600000444360002600000574575170701115522405))
 (.node 1 (.leaf 1335444360060500000997625150701103300519019344443600623000010924502207011026306280000044436006230000089845022070111554736610592295360062300000867450220701103229571105922953600623000013004502207011030441400266244436006230000099245022070110330142402376444360062300000629450220701116113614018494443600623000009865751707011151088900168744436006230000097460016070111523072700832444360062300000564600160701114643655001744443600623000004646001610011160614660149144436006230000066560016070111618533502148444360062300000732600160701115516415027944443600623000007106001607011151918570239144436006230000069460016070110327724802157444360062300000710600160701115256128)
 (.leaf 2344444360062300000679450221001114789506023774443600623000006894502210011147836520120244436006230000058960016100111609946501231444360062300000605600161001102642922012314443600623000005796001610011032847750077344436006010000053960016100111503467900499444360062300000539600161001115694221005464443600623000005096001610011160016490080144436006230000095462515100110325835603622444360062300001206625151001114219696038594443600623000012016251510011140205120145744436006230000068660016100111595090401457444360062300000554600161001103635035000004443600623000001846001615011153161230000044436006230000013560016150111485839400361444360062300000286600161001115357373)))
 (.node 2 (.node 1 (.leaf 3610444360048600000000300001501101556666033704443600486000000003000015011134826720315244436004860000000030000150110155666602470444360030700000000300001501101556666057274443600186000040496251510011139506240000049436000280000331155018100110284816000000444360002800002934575170701102754739105924203600915000060865501808011160439531059242036010240000592352519080111611787406331444360066400005340550180801102821654058234443600134000057066251508011152631320000044436006130000632357517080111499630706659444360071400005342550180701102740068060204443601054000046075002007011154169770248244436009110000691352519070111577156804146444360100300004722500200701114966414)
 (.leaf 4816444360101600006162450220701115583509000004443600885000029505251907011164130930341744436009330000262650020070110275860203553444360063400001863550180701115861085033114443600664000014585751707011031371160439744436006172511121252519070111607159904397444360013400002024475210701102816948030274443600621000002444502207011030073630302744436009040000149045022070111618737403768444360089700001479450220701115292591036654443600870000014174502207011150250960406244436008880000151045022070110342657403890444360086700001479450220701115761956038234443600858000014704502207011155963730294744436008530000391245022070110270198802947444360001100000367450220701102653867))
 (.node 1 (.leaf 444360001400000218450220701102477709000004443600009000003674502207011025799460164344436000240000032245022070110261607801643444360085800001379450220701103253762047834443600845000007463302809011026511540000044436008450000057737026070110258823905126444360002000000155450220701102821485002384443600025000004014502207011032363000023844436000000000118045022070111585007400000452360001600000267450220701103293129000004523600835000015014502207011165278640000045236006560000124545022070111608796500000444360070400000741450220701102865023000004913600845000014174502207011161236980000049136008450000150145022070111552653700000579360084400001479450220701102874082)
 (.leaf 649444360079300001396450220701115633177000004443600704000004364502207011031116370111044436000260000036745022070111641862401081444360084500000395450220701102839269007864443600026000003674502207011160469440078644436000260000034545022070110256018600074444360002600000124450221001102875294000005963600283000010384502207011033775730156644436006210000118045022070110380255201244444360087000001300450220701103497032023324443600870000009524502207011144455190034744436007190000242947521070110325908600000487360063900000141500200701103224593000004873600845000009294502207011161256730023844436008320000394345022080111530949500000444360061700001213625150701115934812))))
 (.node 4 (.node 2 (.node 1 (.leaf 493360061700001208600160701104218293073414443600825000010924502209011021504660734144436006230000154745022070110284047900000521360062300001037450220701114451163000005213600871000010564502207011146999910000052136009960000099443023070111579713200000521360097800000985430230701116047336000004443600623000008504502207011035273570000044436006230000050457517070110370264801276444360062300000564600160701103799170026694443600623000007106001607011161759580244744436006230000066560016070111584028002413444360062300000694600160701115549011019284443600623000007106001610011156126690158344436006230000070555018100111542513802195444360062300000697550180701116069378)
 (.leaf 1231444360062300000703600161001102880480012314443600623000007036001610011147478450056644436006230000049060016100110359518400735444360062300000564600161001115860416005894443600623000004906001610011159873520058944436006230000100760016100110346268100933444360062300000974600161001103176810037124443600623000011926251510011143846670342644436006230000119762515100111452002401457444360062300000686600161001115894627003704443600623000002456001615011156938790000044436006230000013560016150111475294203610444360048600000000300001501101791684024144443600006000012073000015011133255680000049436000280000041355018070110346260200000444360070915374556575170801115911687))
 (.node 1 (.leaf 10592420360094000004024550180801103527295063314443600293000050246001608011033129120626044436004770000543257517080111518940505149444360069800006170550180801103246419031544443601101000061714752108011032182530314444436010860000442145022100111434395305067444360063900006146550180701103472724043684443600877000049085751707011157383970000044436006860000813455018070110312191803553444360102000007083475210701115218194035534443600877000076845251907011032673980355344436006390000483555018070111606371310592444360071400003368600160701103436582030274443600865000010574752107011031192100302744436009040000149045022070111606939503520444360087200001470450220701103905869)
 (.leaf 3498444360089700001501450220701115653428042174443600870000014794502207011032677750382344436008460000225345022070110393203002947444360087200004322450220701116052201105924443600845000042704502207011161834090000044436008450000103045022070110353828500000444360000000000267450220701102654949000004903600025000003454502207011147283920042044436000090000036745022070111444403601643444360001400000322450220701115863158016434443600157000008504502207011035870410164344436008450000074633028070110298899404783444360018300000726410240701102924022000004443600845000005483302807011029429020512644436008450000062335027070110285196905126444360084500000978450220801102976235)))
 (.node 2 (.node 1 (.leaf 5126444360084500001294430230801103417074051264443600011000001464502210011031753550023844436000150000040145022070110364633110592343360000400001115450220701102812093000004443600013000001864502207011035471170000045236000480000141745022070111530550200000452360055800001379450220701116245960000004523600349000014434502207011156594920000045236008370000150145022070111596187700000452360081900001339450220701116174423000004443600273000011804502207011030329420474744436000110000041645022070110300065900000579360000000000383450220701103203693000004443600400000011994502207011034890940000044436002730000038345022070110342460500000444360018300000402450220701115479552)
 (.leaf 444360028300000451450220701115924879000004443600011000003454502207011030426340000044436000260000034545022070110319177700786444360002600000451450220701103374755007864443600032000003224502207011033728140078644436000260000036745022070110388714300795444360005700000296450220701115359430000005963600221000003224502207011039203750099844436005170000098745022070111637124901628444360108200001396450220701115599330007854443600807000030394502207011160843870000062636008420000357445022080110380856600238444360080700001897450220801103263304002384443600807000017084502208011034079230000049336003840000128162515070110348254000000444360114100001253390250701103634094))
 (.node 1 (.leaf 444360114100001368390250701103483307073414443601000000015174302307011144044810000052136009840000069543023070111477109600000521360112700000918390250701115361052008114443600623000011076001607011160178650094244436006230000071060016100110334896502033444360062300000974600160701115109746018554443600623000009746001607011154474460200744436006230000110760016070111618189802825444360062300000778600160701115777240020254443600623000007566001610011160137030000046036006230000070360016100110345828000000460360062300000732600161001103224580015814443600623000006766001610011033399360154044436006230000071960016100111606244601480444360062300000694600161001103096375)
 (.leaf 30444360062300000337600161501115908533000004443600623000004196001610011150479080129444436006230000074330000100111332556802986444360048600000000300001501114555631028464443600486000000003000015011145556310361044436004860000000030000150111455563102971444360048600000000300001501114598539029714443600486000000003000015011020258430186244436004860000056030000150111348267201415444360048600000426300001501113482672025464443600006000007413000015011134826720277544436000060000095530000150111348267204871444360011300002853625151001115146150048664443600183000033295501807011159120181059237036000280000340557517070110317374300000587360093800005570550180801103553388)))))
 (.node 8 (.node 4 (.node 2 (.node 1 (.leaf 10592325360103700005855525190801104337975105924203601079000060015251908011160815640626844436006891154534055018080110408695105896444360071400006170550180801114879311051494443601080000062675002007011035838960558844436009430000585552519070111644057103154444360071400004913550180701116191711071954443600714000048545501807011147582580456644436009450000839050020070111577797802935444360102900006969500200701114837456000004443600686000071925501807011039225800000044436006210000879857517080110328393603553444360102300008766450220701103320550043974443600032000021824752107011165174271059244436001570000110452519070110364601703447444360063900001536525190701115697578)
 (.leaf 3513444360087000001733450220701115424406105924443600803000015235501807011037060441059244436008420000256750020070110401116603823444360086200004041525190701116091889038234443600793000045825501807011036865461059244436008580000430845022070110322374900000444360002500000416450220701104050578000004443600011000003674502207011160520230000044436000170000039545022070110324620300420444360001100000436450220701102984646016434443600000000007414502207011163950230164344436000000000089845022070110321646104783444360000000000774450220701114640920047834443600000000006444502207011149872800478344436000640000077445022070110327848600000444360001900000805450220701102992621))
 (.node 1 (.leaf 1024444360079300000805450220701103230350033474443600845000008154102407011037323970334744436008450000101745022080110340517405126444360084500001396450220701116215896051264443600845000013394502207011161597020512644436001570000036745022070110355706305126444360001600000172450220701103248312000005073600601000011494502207011034938870000044436000240000011545022070110384577200000452360000500000774450220701103364533000004523600011000003954502207011032713440000044436000190000130045022070110375227900000444360084500001465450220701104510098000004443600198000007744502207011034572740000057936000160000042645022070110364558704747444360000000000416450220701103228687)
 (.leaf 444360015700000481450220701103531429000004443600007000003454502207011031780740000052736000150000039545022070111496845600000527360001800000416450220701103692460007864443600026000003674502207011034447290078644436000260000035745022070110325231000795444360002600000426450220701103752951008704443600157000003674502207011042809320045444436001040000036745022070111541625201631444360088200001339450220701115563028006044443600656000005894502207011162535250094644436008460000061445022070111469243002521444360080700001542450221001115720887010674443600807000017634502207011155219780059644436008070000152845022070111551641002104444360080700001128450220701114475613)))
 (.node 2 (.node 1 (.leaf 2496444360080700002659450220701114281317018754443600807000035054502207011147265570110244436008070000203345022070111591593200785444360080700003831450220701103821698000005603600807000020624502207011151213500000056036008070000253845022080111572830200000487360080700002218450220701103588968002384443600807000022474502208011161609420023844436008070000282045022080110370477100000444360083500001058600160701116119691000004443600617000014736251508011037240760000044436006170000099562515070111487663200000493360057600000828625150701104199893000004443601068000015014502207011035325170000044436011410000198039025070110337973300000521360085800000718625150701115962095)
 (.leaf 444360062300000686600161001103438842009424443600623000006866001607011032026870000054336006230000073960016070110351070102711444360062300000803600161001103035668018074443600623000007636001610011147851930115144436006230000074760016100110354484401992444360062300000719600161001115910599013224443600623000007106001610011159865750132244436006230000060560016100111600313001689444360062300000686600161001115365838040794443600623000011556251507011031761070145744436006230000120662515100110278919101457444360062300000739600161001103033971003214443600623000005896001610011147972770064844436006230000055460016100111565286000000444360062300000184600161001115020434))
 (.node 1 (.leaf 444360062300000312600161001103603008000004443600623000002476001615011157765160073344436006230000137530000150111332556802986444360048600000000300001501114598539029864443600486000000003000015011145985390297144436004860000000030000150110225912600810444360048600000858300001501113325568024774443600006000013653000015011133255680723944436000000000381145022100111434343206730444360033400005358575171001114515768045894443600486000030975501810011034676040244544436000280000377757517070111590672210592299360003300003880575170701103430852058384443600934000060205501808011050219920713944436007140000629955018080110443255808505444360055800007789575170801115301235)
 (.leaf 8783444360056700007913575170801114676939088704443600613000076405501807011148560750583744436005920000870455018070110395284506123444360096800008781450220801116280540105924443601025000075484752108011162145591059244436009170000743355018080111616178300000444360095300008885450220801115764679000004443601045000087334502208011039344360355344436009380000865652519080110374124604397444360003200001598475210701103974336105924443600634000043535751707011042803770349944436007770000439055018070111560653004039444360088500004195450220701104056484105924443600656000045146251507011040115301059244436007090000445260016070110374706703823444360063400004529625150701103808214))))
 (.node 4 (.node 2 (.node 1 (.leaf 10592444360079300004442500200701103996105000004443600836000005294502207011161778890000044436000000000040245022070111518333500000490360001300000357450220701114374725004204443600018000003574502207011031542920042044436000070000040245022070111576121201643444360000000000850450220701103538910041424443600000000004364502207011155269190414244436000000000048145022070111540687904142444360000000000468450220701115358761000004443600000000004814502207011035806030478344436000000000080545022070111621660401024444360034900000741450220701103627041018154443600845000009144102408011035304470334744436008450000095741024070110443159505126444360084500001361410240701115527710)
 (.leaf 5126444360084500001374410240701104095324051264443600011000002294502207011036755340023844436000190000043245022070110378951200238444360000000001115450220701114908676000005073600013000010384502207011155929120000044436000260000055845022070110385972300000452360002600000181450220701103669192000004523600000000007744502207011153947530000044436002830000114945022070110395146000000444360001900000936450220701103512364000004443600001000005584502207011160488870000057936000140000040245022070111548736604747444360001500001010450220701103737350047474443600016000011994502207011039203970000057936000050000032245022070110363600900000444360000300000322450220701103465257))
 (.node 1 (.leaf 444360000700000322450220701103512935000005273600014000002964502207011161011940000052736000220000036745022070110361050800000527360001800000395450220701103753964007864443600247000003834502207011037990010078644436008700000056745022070110357429301500444360068600000357450220701103925143015004443600771000003834502207011163793990043944436010960000146545022100111442151000833444360082400000357450220701116203558012684443600656000011994502207011043577410036044436008070000234245022070110372118800000560360080700003898450220801103881155002384443600790000035374752108011042082670023844436007900000222747521070111526256600238444360071400002227475210801103873055)
 (.leaf 238444360068900003379475210801114826146002384443600766000030564752108011151765120023844436008070000336245022080111605554800000444360083500001847600160701103873538000005023600617000011706251507011151513500000044436006270000128052519070111531770800000444360063400001490450220701115988246000004443600879000027966001607011155804020000052136011410000417539025070110361220500000521360085800002487625150701104178769000004533600858000007026251507011036313440000044436008580000114662515070110349555700000539360078200000709625150701114531548000004923600623000010976001607011035363960094244436006230000072660016070111478399802610444360062300001088600160701116291854)))
 (.node 2 (.node 1 (.leaf 543360062300000747600160701114774425018074443600623000007786001607011035689050199244436006230000073260016070111606202210592401360062300000732600161001116055286105924013600623000007566001610011034044490200544436006230000070360016100111482099804032444360062300001206625150701114092761031604443600623000011766251510011034538360145744436006230000075562515100111520404401457444360062300000676600160701115154366004794443600623000004906001610011154211730001944436006230000045560016100111574968300000444360062300000338600161501115941324011244443600623000017623000015011133255680262744436004860000000030000150110249151502986444360048600000000300001501102491515)
 (.leaf 2986444360048600000000300001501114642031033704443600486000000003000015011024915150689344436000000000330445022100111438816806459444360020700004305550181001115029765051014443600689000051406251510011151664040510744436005670000530160016100111530231306227444360016400004152525191001114440354070964443600877000053896251510011037167780528744436006890000367452519070110393203702445444360013600003634575170701103791709064194443600793000056976001608011163086060687444436006891465617055018080111487582406977444360068900006170550180801115713577074074443600689000064195501808011147980110579244436009500000639452519080111501353506225444360110100006395500200801116346912))
 (.node 1 (.leaf 10592396360094900006064525190801104086947058384443600689000062615501808011040345680626444436008820000650655018080110397011607173444360055800007323575170801114999969105924443600714000088945501808011042978631059244436009420000731047521080110434641810592444360020700002850550180701116633850105924443600686000042655751708011045452111059244436006010000441660016070110440368710592444360062300004473625150701116450367036754443600771000043885751707011044215440417444436007140000447460016070111596259000000444360068600004473625150701104499482000004443600467000045126751307011047141380000044436006860000452962515070110394452410592444360046700004526675130701103788151)
 (.leaf 10592444360057600004452600160701104577421000004443600576000043356001608011047663020000044436006270000051645022070110480459700420444360000000000468450220701103686535041424443600617000009164502207011045262200414244436000000000077445022070111500068101024444360000000000741450220701104102278018154443600819000007744502207011038327320512644436008450000084439025070110467396405126444360084500001332390250701104634721051264443600627000009814102407011037997410512644436000090000018645022070110385471410592343360000300000432450220701104265953000005073600003000004364502207011041314940000045236000140000029645022070110389603700000452360000800000956450220701104049632))))))
 (.node 16 (.node 8 (.node 4 (.node 2 (.node 1 (.leaf 444360000900000901450220701104159413000004443600001000010104502207011163825120000044436000070000050045022070111608390500000579360001600000395450220701103876082000005273600014000002184502207011039118830042044436002830000039545022070110397608600786444360087000000649450220701103674012023724443600870000012614502207011155456480074544436010960000147945022100111634085700513444360019200000244450221001104207412012574443600517000003954502207011159588310143444436008700000097845022070111577795801355444360047700003810500200701103771769005144443600807000028694502207011045183970293644436008070000330545022070111614314000000560360023200003343525190701104491464)
 (.leaf 560360079900003151475210701103841908002384443600686000021344752108011150250540023844436007660000248247521080110415648300238444360071900001958475210801116110158002384443600807000017824502207011040865120023844436008350000315960016080110456021102037444360083500003014600160701104698676000004933600689000006006251507011160428490000050236007820000038962515070110443141000000444360070400002989500200801104030137000005213601141000027333902508011028386590000052136011410000332739025090111533307100000453360085800002139625150701116017875000004923600623000011776001607011035609970180744436006230000079560016070111481438301807444360062300000787600160701114870721))
 (.node 1 (.leaf 497360062300000726600160701114755903018074443600623000011406001610011147567931059240136006230000109760016100111602891902176444360062300001097600161001104098158039934443600623000011714502210011144756750295844436006230000109760016100111493729303412444360062300000803600161001114403417031604443600623000011396251510011040940040145744436006230000076262515100111568727300028444360062300000387600161001115533512028264443600623000006583000015011147306960298644436004860000000030000150111468608902986444360048600000000300001501114686089029864443600486000000003000015011146860890297144436004860000000030000150111348267207984444360068900006475625151001114491468)
 (.leaf 6936444360013400004715525191001115460536060844443600848000042685751710011159446830719244436006170000514452519100110414846405850444360087700005547625151001104160143060574443600198000047036251510011147131080439744436000280000359557517070110409141204397444360068900006815550180801116573341105923963601018000062275251908011040240691059235736009840000626452519080111605097204397444360071400006086550180801104272435079864443600558000076525751708011043100480798644436005580000773657517080110406585007986444360055800007789575170801103994050069884443600567000078425501808011154198351059244436005580000773657517080111649160300420444360083900008814525190801115268984)))
 (.node 2 (.node 1 (.leaf 3553444360094900008833500200801104231841105924443600148000052004502208011047264921059244436000220000032245022070111613610610592358360027300001648550180801116669511105924443600819000043356001607011049239921059244436008460000441757517070110418761903675444360082800004452600160701104213094000004443600714000045166001607011157693660000044436006230000447362515070110469308300000444360085600004498525190701116304989105924443600689000044545751707011049031951059244436005760000440260016080110433067600000444360004800000426450220701116176272000004443600028000005004502207011150685970000044436000010000038345022070110385077200000444360001100000296450220701115842746)
 (.leaf 420444360000000000416450220701116059367004204443600000000004684502207011037006310042044436000480000046643023070111604629204142444360000000000481450220701104205059000004443600000000008314502207011154047940181544436008450000083145022070110408605501815444360084500000647390250701104102361033474443600845000013353902508011164162210512644436006860000071541024070111611687005126444360001700000261450220701104230078105923433600013000004704502207011043523391059234336000240000095645022070110421228104735444360001100000956450220701115087139000005073600007000010764502207011042215690000050736000070000101045022070111612688000000507360000100001038450220701116141651))
 (.node 1 (.leaf 555360000000001115450220701115282383000004523600024000003454502207011042512330000045236000250000055845022070111527367800000452360002400000558450220701104459310000004523600005000010104502207011044053920000044436000160000071445022070110432508300000444360000200001038450220701115405299000004443600017000010384502207011038484670000050836000050000039545022070110444781700000527360001100000218450220701116109969004204443600803000005834502207011048878890150044436008700000139645022070110457770402212444360087000001396450220701115784623007484443600400000004684502207011043268280066744436000260000038345022100111520050301208444360076600002492475210701114593103)
 (.leaf 2854444360080700003362450220701116223564000005603600072000030095501808011163177670023844436007790000311347521010110481365600000533360038400001432500200801104439463002384443600164000018535251907011162398820023844436007930000216147521080111598550805697444360082800002199600160801104972073020374443600835000022746001607011165751650203744436008350000078260016070110424087400000493360083500000351600160701116123758000004933600835000002796001610011161650750439744436008350000031760016100110446141304397444360083500000317600161001115221311000004443600803000018025751707011161848310000044436007820000430555018070111613986700000521360114100004159390250801103864472))))
 (.node 4 (.node 2 (.node 1 (.leaf 521360114100004146390250801104112954000004443600858000029076251507011039952230023844436008580000076962515070111459551600000539360062300000778600160701103932204018074443600623000007566001607011159399810073444436006230000114760016070110450232610592401360062300001156600160701103774650105924013600623000007396001607011043090720205044436006230000071060016100111642501303791444360062300001146450221001114070674027084443600623000006556001607011149454580226744436006230000073960016100111461690402116444360062300000703600161001104755903014574443600623000007626251510011034942000145744436006230000057960016100111647464500267444360062300000397600161001115154602)
 (.leaf 2826444360062300000154300001501102953540035844443600486000000003000015011029535400256844436004860000000030000150110295354005644444360036600004677550181001104111036057294443600954000038436251510011163257710581344436009520000274862515150111603602206094444360079000003353550181501115747643058504443600000000036064502210011161621290538544436006890000415752519100110474379704397444360042300006317575170801116133061105923573601007000060645251908011045957240715944436005580000765257517010111540637307496444360055800007815575170801114297882093954443600558208180145751710011154600850792944436005583255778957517080110453653404397444360055800007682575170801104310439))
 (.node 1 (.leaf 420444360087800008700600160801104559128000004443600949000072735002008011051129450355344436009410000883252519080110485456710592444360087200004522450220801116317836105923583600016000002444502208011161618991059244436006690000767660016080110467354200000444360085600004440550180701104676115105924443600901000044985251907011048912320000044436006560000781557517080111597249400000444360079000002552450220701104610627000004443600704000004024502208011162518180000044436008450000035745022070110411713404142444360000000000468450220701104665580041424443600011000005164502207011160355150181544436008450000089239025030110481063201815444360084500001325390250801104705959)
 (.leaf 5126444360084500001308390250301115568560033474443600845000014024302307011157443650512644436008450000145345022080110521401205126444360084500001370410240701116523792051264443600019000004364502207011042455540512644436000200000026145022070110449148000000507360001800000901450220701115342608051264443600008000008574502207011043453920000055536000090000107645022070110498103800000452360000300000501450220701104574740000004693600000000006094502207011045480230000044436000130000036745022070111629003300000444360000800000303450220701104398411000005793600009000003454502207011048895730000057936000010000024445022070111604215000762444360002100000244450220701104535121)))
 (.node 2 (.node 1 (.leaf 527360000900000296450220701104227972004204443600000000002444502207011044980600241544436008070421130045022070111615722103687444360080700001535450220701115448463000005603600807000027504502208011045125190000056036008070000215245022080111607327900238444360080700002314450220801104802368002384443600790000034214502208011046398630000055736007710000228545022080111618629700000533360054000003961500200801104608660000005333600807000016734502208011048246010023844436008070000189745022080110467625405697444360083500002294600160801105119145035544443600835000024716001607011151829090355444436008350000179360016080110478937000000493360083500001812600160701116220820)
 (.leaf 3554444360083500001773600161001116101380043974443600835000002796001610011045080160000044436008350000027960016100110499341900000444360101200004339500200701114870052036184443601141000041163902507011042096880361844436011410000413039025080110423951900000551360114100003387390250901116057705000005513601141000034033902509011149667130000045336009400000284360016090111510809000000626360085600000777625150701104394320000004443600623000011916001607011042686980000044436006230000073960016070111612370500000497360062300001126600160701114700922024264443600623000006866001607011047522030217644436006230000072660016100110462310102178444360062300000719600161001115107063))
 (.node 1 (.leaf 2588444360062300000719600161001114729682026784443600623000007566001610011137105270376744436006230000117145022100111404847302859444360062300001146450221001115977220027084443600623000010886001610011155217550254844436006230000078760016100111332556801906444360062300001116600161001115205542014574443600623000006946001610011148751950072744436006230000062760016100110469808400000444360062300000215600161501105029987035844443600486000000003000015011031831400256844436004860000000030000150110318314005933444360068900005924525190801104509142043974443600450000040796001607011164550860439744436005920000493362515080110457564606503444360068900005411550180801105108751)
 (.leaf 7261444360068904217370550180801115357734078454443600714106065315501805011148470710738344436007140000641955018050110501936507028444360077900006421525190501116314302105923573600849000059435501808011048113730439744436007140000602055018080110429399210592444360110100006202500200801105383264081664443600558000065835751708011150289900798144436005580000768257517080111536843704397444360055800007736575170801105378215004204443600639000086885751701011046027510311244436008710000743355018080110472749110592444360096800007358450220801105125513000004443600920000088776001601011161074181059244436009040000887857517080110457527610592358360064300007682575170801105480303)))))
 (.node 8 (.node 4 (.node 2 (.node 1 (.leaf 10592444360063900007889575170801105176945105924443600639000071786251508011155430331059244436008390000441660016070110496242900000444360085800004476550180701104780981105923763600835000045316001607011159207940355544436008450000445457517070111689787301253444360087500004498525190701115788251105924443600872000042516001608011050542961059244436005760000776260016080110530654010592444360065600007736575170801105328861105924443600890000056434502208011050723081059244436008580000291945022080111532007610592444360061700002924450220801114981350000004443600845000003454502208011044115410042044436000280000041645022080111616730000420444360059200000426450220801105074876)
 (.leaf 4142444360084500000516450220701116276017041424443600704000005164502207011047350890467744436008450000091645022070111507201804677444360084500000523430230701115828161041954443600845000004673902507011046943700512644436008450000084439025030110469783705126444360084500001272390250301115562833051264443600825000014524752103011055634630512644436000110000055845022070110465156005126444360001800000199450220701104985014051264443600025000002614502207011162776580512644436000140000060945022070111624972105126444360000800000857450220701104429515000004523600006000007904502207011044872420000046936000010000090145022070110487391900000469360000800001149450220701116093788))
 (.node 1 (.leaf 444360000000000589450220701104792659000004443600003000009014502207011046171910000057936000200000107645022070111628841400000579360001400000470450220701104754685007624443600024000002574302307011153668390042044436007420000112135027070111660659400420444360077100000451450220701104832181007864443600467000004684502207011047387490151244436005760000143545022070110501741102987444360087000001490450220701114799740025784443600709000035124752107011054486020023844436007930000362045022080111591992800238444360080700004297450220801105035278000005333600215000022235251908011150155590023844436008070000247345022080110472089200000444360082400002820450220801104958549)
 (.leaf 444360079000002820450220801104788115035544443600835000021066001608011047587660058244436008350000059660016070110503108900000444360079000003066550180701115915464000004443601141000041163902508011045480760361844436011410000411639025070111448415800000444360101200002794525190901114872481000004443600858000029856251507011149561660023844436008580000284162515070110457746000000626360085800002116625150701104964440000006263600790000011726251507011159013620073444436006230000113360016070111457361203477444360062300001153450221001114513473017244443600623000011406001610011142330560164244436006230000108860016100111458070901488444360062300000647600161001114777013)))
 (.node 2 (.node 1 (.leaf 772444360062300000539600161001105208008010704443600623000009286001610011047632060019744436006230000036160016100111517959204606444360062300003548300001501113325568035844443600486000000003000015011148214800358444436004860000000030000150111348267203584444360048600000000300001501114821480017994443600486000000003000015011134826720150944436004860000190930000150111332556807213444360080700006446650141001115477498059254443600100000046475002010011148066490822244436005490000873957517100111562811005842444360083200008893575171001115712940056184443600982000089846251516011153194860487844436008240000822455018100111475192406407444360068901826120525190701104774075)
 (.leaf 4397444360052800004453600160801115024708043974443600689000054666251508011160708620738344436007140000773952519050111617245510592312360071400007411525190501105323770105923213600714000057945501808011149957620439744436007140000587855018080111570274610592444360091900006261550180801105050051063554443600714000062995501808011054404851059244436006050000771157517050110516382905697444360092300007715500200501105326653056974443600558000077895751708011050908970439744436005760000745357517080111632335503112444360063400007621575170801105249369045114443600621000076235501808011154098950451144436008900000778957517080111626945210592444360096800008831550180801115705670))
 (.node 1 (.leaf 10592444360000900001880450220101115345826105923583600771000075275501808011152403781059244436007900000768060016080110535987010592444360087700006674525190701105043747105923763600885000054585002007011049981580355544436008320000497960016070110583362503555444360085800004497550180701105584689045124443600845000074715751707011153830461059244436008370000787350020080110536757010592444360080700007630450220801105682440105924443600832000057144502208011163264940000044436000000000356745022080111512857600000444360047700002247450220801115022158000004443600157000003954502208011158622190042044436008450000045145022030110495573604677444360084500000529450220301116311003)
 (.leaf 4677444360084500000508430230701104995687051264443600771000013364102407011165769590512644436001700000110943023070110516205705126444360000100000558450220701105112348000004443600009000008574502207011051950410000045236003070000090145022070111616685800000452360006900000857450220701115997818000004693600001000011994502207011050063410000044436000040000090145022070111634406500000444360000000000589450220701116000205000004443600000000008314502207011151811260000044436000000000111545022070110522582100000579360002200000383450220701115321292007624443600006000002444502207011048118760076244436003490000043439025070110509170200420444360032200001217450220701105061529))))
 (.node 4 (.node 2 (.node 1 (.leaf 420444360087000000516450220701115182464015124443600400000003834502207011048713800222944436008390000142745022070110518093103145444360087000001490450220701115448999026024443600807000015184502207011150047150000044436005670000226450020070111536714100000444360080700003898450220701114945337000004443600807000035274502207011162324900000055736007710000398445022080110493415900000557360080700004174450220801105312064002384443600467000026855002007011154946930000056336001040000139452519100111632963100238444360027300001440525190701115471091000005633600807000035744502207011160943120000044436008070000209245022080110506561900000444360083500002647575170801116075226)
 (.leaf 3554444360083500002294600160801105764516105921863600835000018296001607011051878391059218636008350000031760016100111540370100582444360083500000419600160701105239500000004443600790000031305501807011146990810000044436010010000424150020070110569320903618444360114100004175390250701114722318000005883601141000033643902507011161149870023844436008580000368362515070110532587600000444360085800002801625150701114896913000004443600858000013466251507011158170320073444436006230000079560016070111442919800734444360062300000771600160701104561412007344443600623000011336001607011162334540073444436006230000117360016070111452766100000538360062300000763600160701114418064))
 (.node 1 (.leaf 2445444360062300000710600160701115419733013934443600623000007566001607011163853210250944436006230000078760016100111612392902426444360062300000778600160701114540798035294443600623000008036001607011144167420045044436006230000057960016100111376685200776444360062300000472600161001115431546003144443600623000004406001610011158638570411844436006230000171930000150110363943203368444360048600000000300001501103639432024764443600486000000003000015011036394320247644436004860000000030000150111348267206003444360098200009031625150101115019193057484443600689000057655251907011051113210439744436001860000392657517080110488351705647444360068915156473600160101115781442)
 (.leaf 5787444360068934767139575170101114927837072584443600689000077375501808011138489380753544436008770000645452519080110533992610592444360071400006020550180501116504470105923123600714000060015251908011160812511059232136007140000600152519080110488273510592444360071400006086550180801115604491105924443600714000060865501808011044634651059244436006640000635755018010111646379705697444360089604087793500200501105577987043974443600664000073705501801011163915460451144436008530000776062515080111633323310592444360079900007808675130801105102009105924443600849000089726501408011053754961059227436006230000691460016080110580150910592190360070900007709600160801106416380)))
 (.node 2 (.node 1 (.leaf 10592444360078200007370550180801106068344105924443600698000075636001608011164723881059244436008580000776555018080111648484600000444360082800005365600160701115125906000004443600837000079556001607011054325691059244436006560000758862515080111520386010592444360089800007139575170801106448927105924443600898000077115751708011154450371059244436008980000765257517080111599216110592444360089800007390575170801116542900105924443600898000076525751708011052571021059244436007820000787155018080110560947810592444360080700005338450220801105237880105924443600000000051784502208011051593200000044436000000000413345022070110531240900000444360018300000416450220801115165135)
 (.leaf 444360004800000426450220801115149852000004443600307000005004502203011049426890512644436008450000147945022070110564789005126444360084500001386410240701116549815051264443600845000014364302307011156144520512644436008450000135341024030110507943105126444360052800001353410240701105726740051264443600008000001864502207011053468860000044436000160000070745022070110528017400000444360032200000790450220701105290614000005313600009000010104502207011055769680000044436000170000090145022070110528035700000444360000900000901450220701105546481000004443600164000011094302307011054179560000044436000100000107645022070111532161600000444360000200000901450220701116113277))
 (.node 1 (.leaf 579360001400000357450220701105525325011284443600192000003224502207011151109050060644436000040000021845022070111620686900762444360006900000296450220701105200267007624443600862000014174502207011059415500042044436008700000051645022070111660641800420444360062100000345450220701116091853015124443600176000005584502207011155817790109344436002210000043645022070111505365900000444360080700002662450220701114419461000005573600807000043744502208011055050100000056336008070000274245022070110538744600000444360080700003050450220801116229095000004443600807000025084502208011149434950000044436007820000273447521080110556249700000444360083500002694600160801105379846)
 (.leaf 238444360083500002655600160801105343661035554443600835000027386001607011059016410058244436008350000031760016070111632060600000444360083500001480600161001106072429000004443601141000034173902507011049235250000044436011410000334239025070110500490500000444360085800003616625150701104955578000004443600858000029076251507011144722150380344436008580000186162515070111611076500734444360062300000803600160701115288881007344443600849000011726251507011162194310094744436006270000075562515070111466812902445444360062300000732600160701105858876013934443600623000007476001607011054479540250944436006230000078760016100110520740001288444360062300000564600161001114901784))))))))))))
 (.node 1024 (.node 512 (.node 256 (.node 128 (.node 64 (.node 32 (.node 16 (.node 8 (.node 4 (.node 2 (.node 1 (.leaf 563444360062300000464600161001115402210003774443600623000004316001610011157412920019544436006230000039760016100111465744803383444360048600000000300001501113482672030504443600486000000003000015011134826720460944436006890000384257517100110558748605319444360068900003939525191001115777928057484443600689000050045501810011162397391059230736003570000487860016080110508508007956444360071400007792525190501114781452073264443600656000076575002005011060983250773044436007090000771452519050111646994510592444360083700005923525190501105497300105924443600714000062615501808011056032991059231236007140000730755018080110529055010592321360092300006227525190801105211451)
 (.leaf 10592444360076600006358525190801115684953105924443600882000061705501808011163754951059244436007140000641955018080111623653110592349360071400006357550180801115720407056974443600879000077935002005011060389870569744436007140000745357517010111673075003949444360079000008799500200101105249193046034443600842000087435002001011152623641059244436008420000884952519050111634435702445444360103600007523450220101105752785024454443600825000068134502201011056416710439744436002070000450955018010110590297610592274360077900007945600160801105857950105921903600621000087156501408011061825231059224336008420000818552519080111640003410592444360090400007871450220801116441449))
 (.node 1 (.leaf 10592444360090400007928450220801115311090000004443600779000077895751708011061311560471544436008770000776260016080110582428510592444360080700006331450220801105372431000004443600021000052534502208011162331530000044436000000000517845022070110596468800000444360084500001638450220801105449714000004443600007000004514502203011153162500042044436000000000048145022030111548694004677444360084500000557450220701115427892046774443600845000008443902503011053121290512644436008450000130045022030110552731105126444360084500001361410240301105148701051264443600845000013323902503011154340250512644436008450000134439025030111525667605126444360084500001427450220301105433364)
 (.leaf 5126444360084500001443450220301115359065051264443600845000014255501803011056643980512644436000030000015545022070110570757205126444360001300000146450220701116473790000004443600024000010384502207011166459840000044436000070000114945022070111526133000000444360018300000956450220701116358543000004443600007000006094502207011161218480000044436000140000070745022070110544346700000444360000000000987450220701116306333000004443600010000008574502207011163989270191444436000090000029645022070110547716800606444360087000001429450220701105303139007624443600467000004514502207011054917390151244436000260000034545022070110596213001512444360002600000367450220701116598064)))
 (.node 2 (.node 1 (.leaf 722444360002600000345450220701105374506007224443600026000003834502207011060486990013844436003220000040245022070111475318200427444360002600000367450220701115024439004894443600026000003674502210011143209130075544436008070000155145022070110503268600000444360080700003488450220701106098655000004443600807000025954502207011068851170000044436008070000247345022070110588307400000557360080300003362450220701116260631000005573600807000038114502208011157256600000056336000260000525655018080111647299900000563360021500005258525190801116254056000005633600689000048004502208011058649400000056336000260000112055018100111541011900000444360033400001879500200801105463584)
 (.leaf 594360002600001255550181001116339353000005943600164000018535251908011165190750000044436007190000344947521080110617132610592000360034900003473575170801105498158002384443600835000026556001608011056756030000044436008350000265560016100110552647200000588360079900004270450220701105201292000005883600623000042574502207011146823780000044436006230000364752519090110514300503803444360085800002994625150701105294058000004443600858000011326251507011055132390241944436006230000077860016070111609064102419444360062300000732600160701114415008002284443600623000004406001610011155091630028444436006230000046460016100111479781103815444360048600000000300001501115008825))
 (.node 1 (.leaf 2494444360048600000000300001501113482672048814443600576000024116001610011060171440140344436003570000224455018100111631400000000444360066400003565550181001105480871000004443600689000037655501810011055701131059235936006430000692862515070110561124507953444360056700007765550180501115471640105924443600714000061405251908011150906211059244436007140000606452519080111644599610592429360071400007516550180801105417777105924223600714000058555251908011162577471059244436007140000632652519080111486383910592444360071400006358525190501115253922041964443600828000077655501805011058052390394944436008350000879950020010111574527604859444360079300007762600160101106155039)
 (.leaf 10592444360085300007490525190101105895669105924443600953000074954502201011059775940244544436010360000760245022010111553230602445444360060500006813450220101105992939043974443600000000041284502201011064701511059227436008070000873262515010110587150210592444360063400008749650140101106829731105922433600845000087074502209011149565111059243836008580000873750020030110559047010592438360085800008006525190301107045992105924443600837000079495002007011161942701059244436008720000787350020050111579195710592444360090400007660450220301115605646002384443600904000075744502207011058585310023844436008420000781952519070110628499610592444360086200008005475210701116472071))))
 (.node 4 (.node 2 (.node 1 (.leaf 4715444360084500007880525190801106446342047154443600897000074335501808011064783130489044436008980000762157517080110570730910592444360085800007235450220501106161919105924443600807000084924502208011063805900000044436008070000645945022080110575651005126444360000000004912450220801105371762032364443600617000040804502208011059344810323644436008450000069345022080110577200600000444360002400000436450220301114989123000004443600000000005164502203011053566060042044436008450000050045022030110567311406814444360085600001254430230301105861209043974443600845000012723902503011161426950439744436008450000125443023030110546565905071444360084500001253390250301105795589)
 (.leaf 4788444360084500001308390250301114918799047884443600845000013253902503011151823430512644436008450000128345022030110566542205126444360084500001354450220301106217058051264443600011000003454502207011055682080000044436000080000030345022070111539738300000444360002200000267450220701116289084014044443600007000008574502207011057685170000044436000010000103845022070111626901700000444360001100001010450220701115321393003274443600069000006094502207011152674770124644436001920000057545022070111553929201914444360040000003396450220701106396406019144443600104000010844502207011060899830076244436001920000032245022070110638843100373444360002600000367450220701117043931))
 (.node 1 (.leaf 647444360002600000199450220701106197641007224443600026000005734502207011058868090071244436008070000144345022100111498083300988444360080700001547450220701105938701000005573600807000027694502208011066907860000055736001480000196752519070111534807200000563360002600001743550181501106134412037724443600026000016395501810011063325940000044436001360000239952519100110600845400000444360002600001744550180701105881519000004443600835000027876001608011059147671059200036008350000226160016080111491683500238444360015700004100525190801116130280002384443600686000027876001608011149831300000044436008350000210660016100111469760200000444360083500001871600160801116314468)
 (.leaf 444360083500003032600160801106153899000004443600877000039145751708011146119740000044436006230000506252519070110545700200000444360102800005598600160701105435923000004443600682000054285501808011058105200000044436006230000402752519090111575153700000444360062300002959525190901104647600000004443600505000028935002009011052177540073444436008580000292662515070110619393100000444360085800000762625150701115060276021814443600643000007306251507011054837920241944436006270000080462515070110536569100336444360062300000778600160701105609643032074443600024000006154502207011055179410310944436000240000063945022100111622286902277444360002400000594450221001116400349)))
 (.node 2 (.node 1 (.leaf 1907444360048600000000300001501113482672024944443600623000000003000015011134826720150344436004860000011030000150110431633104413444360068900002041600161001106025393014034443600183000017065501810011058038701059243736006890000641455018100111613914903554444360068900005249550180801105787371105923593600689000068885501808011151237180593644436006892313632160016010111521724108589444360071400006394525190501106172909105924443600782000060645251905011150544051059244436007140000592352519050111510185610592382360071400005855525190501116326165105923823600839038376835501808011057845341059234936008580000768550020050110734207610592444360081900007711575170501115606739)
 (.leaf 4196444360079000007682575170501107513249105924443600837000087985751705011073872910244544436000480000654245022010110685543610592274360077100008732625150101116203509105921903600585000087496501405011065040451059244436008720000867155018080110704800300238444360087500007759450220801106258128047154443600890000087234502208011166856850471544436008900000824545022070110628738804890444360065600007617650140801106122033000004443600856000079664752105011168163590000044436008580000837545022050111659802003236444360084500000557450220301106001421004204443600349000005834502203011059056450042044436008450000054345022030110576249704677444360084500001321450220301115044972))
 (.node 1 (.leaf 6814444360084500001264410240701106331387068144443600845000013484302303011151414110439744436008450000119539025030110585024604564444360084500001238390250301105923102051264443600845000013484302303011062782660512644436008450000133945022030110619550305126444360084500001300450220301106403612000004443600845000011804502203011061511410000044436000040000043245022070110617950100000444360000500000186450220701115897534000004503600010000003034502207011061615270116544436000240000021845022070111648494300000531360001100000345450220701106145853000004443600001000006094502207011166932050000044436000010000101045022070110595031300000444360000200000956450220701116679955)
 (.leaf 444360000700001005450220701105965932001254443600000000005344502207011146013810015044436000000000029645022070111506482401914444360011300002404450220701105996046023604443600026000002674502207011063723960171344436000260000024445022070111535187901269444360002600000267450220701115247566003734443600026000001404502207011066152100098844436008070000155645022070110542432601003444360080700001535450220701106024617023644443600807000015514502207011162670870000055736008070000302445022070110661287004317444360011600001807525191001106132928037724443600605000020884752110011064053020294244436000260000184955018150111561533300000444360002600001621550181001115773494)))))
 (.node 8 (.node 4 (.node 2 (.node 1 (.leaf 10592000360002600003334550180801116265079000006263600664000047026001608011058806310000044436006890000293855018090110637114610592195360068900002901550180901116327512105921953600689000028035501807011162531800023844436007420000290057517070111479426300000538360085300000787625150701114779446013294443600771000007556251507011062709350368844436000240000063945022070110625662303392444360002400000639450221001106328246026114443600024000005834502210011152305140287444436000240000051645022100111603625503865444360062300003396300001001113325568009134443600486000016553000015011133255680408044436003840374192857517100110611732900000444360068900004343550180701116327783)
 (.leaf 10592359360068909745503575170101106497606105924293600714000076835501808011062507211059242236007140787656352519050111552717110592422360071401516659525190101105231582105924443600842000073545251905011055584041059234936008770000765750020050111703771310592444360084200007490525190501107149050041964443600846058777145251905011073943111059244436008580000879950020050110710141804859444360084400008762525190101106644922105924443600842078773545251905011070643791059244436008580000746150020050110737266605125444360083900006772500200501107124864051254443600008000066414502201011157810860488944436000140374483245022050110697112106813444360070400008750625150501107446276))
 (.node 1 (.leaf 10592444360055800008785650140501115622123105924443600790000087526001608011059266851059244436008780000881052519080110610564504715444360086500008707450220801107192961000004443600845000086274752105011067611790000044436007090000638245022050111557103105126444360000000006041450220801116590902032364443600845000060034502203011151609860323644436008450000298245022030110642830003236444360084500002571450220301106152595032364443600845000008564502203011162556360524044436008450000133945022030110612609304619444360084500001538450220301116262937068144443600934000019684502203011059323900000044436008450000349941024030110622273800000444360084500002459390250301106068257)
 (.leaf 4430444360084500002061390250301115144893045644443600845000026463902503011063467270569844436008450000309139025030110598257405698444360084500002546390250301116340212047884443600845000018213902503011061795850512644436008450000128345022030111530803200000444360084500001149450220301106006156000004443600144000005894502203011067438470000045036000070000033645022070110644041301165444360000000000124450220701115782209028554443600001000002964502207011160392470266844436000050000043245022070111589497300700444360000000000336450220701115491332000005313600015000009874502207011164802210000044436000250000055845022070110641513600000626360000500000790450220701106139588)))
 (.node 2 (.node 1 (.leaf 444360000400001010450220701115077423000004443600000000012074502210011158037400297044436000000000200245022100111407212801936444360001100001674450220701114897822017444443600000000021524502207011143604140419444436000260000228545022070111473239602360444360083500002020450220701116595463026974443600057000013374502207011158360260171344436000260000134745022070110680869301269444360005700001424450220701106405400002194443600026000001404502210011147666380236444436000260000548255018070111550698000000557360045000006402500200701106638774000005573600807000064224502207011163394690000056436001040000625452519070110745306403546444360057600006729475211501116161217)
 (.leaf 4046444360002600003176550181501114647479041794443600026000043055501805011146871960343444436006690000361147521150111575591104595444360002600002376550181501107529227000004443600026000031205501815011158382720000044436000260000180155018150111635730903428444360002600002093550181501116210948000004443600026000013455501815011157143140042044436007990000291637026080110700433300000626360083500004105600160801115976331002384443600384000045985751708011066807520000044436008350000303260016010111708820200762444360083500002889600160801116783632000004243600845000071423302807011169369331059219536006890000290155018070110688821100000444360068900002891550180701107332471))
 (.node 1 (.leaf 444360079300002985600160901106736935000006263600024000006794502210011069916530382644436000240000070745022070110731400402321444360048600002103300001501113325568050584443600689036233766001610011065814640408044436005760000339560016100111628812100000444360068900003079550180701106255550014034443600689000052495501801011163412410355444436006890000541155018080110667863506346444360068935036224600160101106602540090194443600028000079476501401011143805131059244436006430000567939025050111646777810592422360085800007395500200501107329028105923843600858000075475002005011170763670425444436009330000781952519050110680985110592444360078200007762600160501107012662)
 (.leaf 4196444360080300007621575170501116891105048594443600782000087804752105011072691200512544436007990362878047521010111602773804889444360000027285311450220501107452055051254443600872000088884752108011156107081059244436008560000891950020080110664122610592029360087801418947450220801106375886105924443600875000088074502205011164603091059244436008580000874145022070111592175510592444360063400008669625150801107130307047154443600825000086895501808011169176730308344436005580000878565014050110667820000000444360068900008786600160501107128923000004443600477000047284502201011066322450512644436006210000613845022050111508802905126444360000000006138450220101106480000))))
 (.node 4 (.node 2 (.node 1 (.leaf 3236444360083500005474450220301115500746032364443600842000057534502203011154403810323644436008450000328145022030110673730903236444360084500001641450220301116511453052404443600845000034814502203011164774140524044436008450000403045022030110650227504619444360084500002022450220301115452951000004443600871000030084502203011163769140443044436008450000214139025030110647386700000444360084500001149450220301106402890000004503600007000004324502207011064906430000044436000040000036745022070111517086500700444360000000000199450220701106695747007004443600016000009054502207011068655000000044436000110000085745022070111575963800372444360001600000395450220701106711079)
 (.leaf 169444360000000001691450221001115586529041174443600875000042164502207011066972510116744436008070000154745022100110736034002364444360080700002063450220701107496270023644443600334000062215002007011076953760000056436000260000663955018070111702872900000564360080700007116450220701116470697002384443600026000018155501810011076520430390044436000550000451955018100111611213305971444360087500008665450220801116386709050494443600283000029985251907011167910550363444436000260000278855018150111479491400420444360002600001840550181501107904603000004443600349000021155251907011158320480000044436000260000551655018080110760248100238444360002600004905550180101107960182))
 (.node 1 (.leaf 762444360083500003032600160101107556676007624443600835000038386001601011076043390076244436009390000695135027080110755258800238444360093200007190350270801116637732000004443600664000065885002001011076092921059219536006890000290155018090111756246704766444360068900002891550180701115788049000004493600689000028915501807011073203790140444436007090000298457517070110767905401404444360080700000947600160701107395665000006263600024000007074502210011075191980330144436000240000062245022070110752165005346444360050505514367600161001106473624047714443600689000034745751707011070754381059244436006893192532062515010111734198307051444360082415396478575170501115743694)
 (.leaf 8410444360002800007834650140101115025577079084443600183126474535751701011145004020707744436005761539608947521050111520881808342444360034900006395500200501115293836082104443600273000063945251905011145061550808444436000280000647465014010111450918310592422360084400007252475210501107967505105923843600853000076565251905011176130841059238436008960000765750020050110766920010592346360085600007570500200501107883961105924443600858075288155002005011081955860619044436008280341885150020050110792523604859444360082500008678475210501107637678051254443600807075265925002005011078857490681444436000012591540845022050110815574705125444360088500008915475210701106955098)))
 (.node 2 (.node 1 (.leaf 10592029360087100008944450220801106599950105924443600845000088534502205011071992911059244436008440000873645022050110731771710592444360084200008707450220101106831545105924443600845000086774502208011070204501059244436005920000880562515080110732899710592444360085800008629450220801117042207014044443600862000086294502208011170723650487644436007790000869250020050110734465803083444360062700008856600160501107219423000004443600807000048064502201011075024340512644436000000000585445022050111520382105126444360000000006382450220501116451162032364443600025000059454502201011065724260524044436008370000587445022030110726213304619444360084500003127450220301115269651)
 (.leaf 444360084500002553450220301106766876000004443600845000031423902503011068818110569844436008450000064445022030111647867804103444360084500000805450220301106470992046574443600845000012614502203011162318690000044436003490000077445022030110678531901165444360000200000244450220701116683869032764443600000000014604502207011067091780005244436009190000157845022070110640260500052444360022600000218450220701115379477004834443600024000003044502207011155544080085244436000010000092945022070111505728100000444360001000001011450220701107360337003914443600000000023144502208011148401700468544436008700000342145022070111526712105366444360060500006542450220701107203992))
 (.node 1 (.leaf 2184444360080700001559450221001116003094045964443600183000033225251907011094989340488244436000260000336055018080111402382706869444360001900008445650140501115845938049364443600026000059215501805011161010870599444436000260000857455018150111605097400000571360002600001997550180801117446473000004443600623000038386001608011078333150000062636001760000370555018080110755587000000444360082500003306550180101116092425007624443601141000072453902508011076789590355544436008450000711033028010110805498800000574360084500007060330280701116813892000005743600932000070553502701011156959130000057436008440000571435027090111743689100000444360065600006571500200801108300605)
 (.leaf 1404444360068900002782550180801116286941000004493600689000028315501809011148612460140444436006890000353655018070110749292810592313360068600000757575170701116275068000104443600664000007786001607011174030220027344436006430000081870012070110881961203392444360002400000658450220701117503984033924443600024000007134502210011163230950025744436000240000015947521100111557316205010444360068910902898600161001116182200048434443600689000038345751710011078340391059243736007040000547855018010110760912310592437360068912535466625150101117164822064694443600828152263905751705011162977440762744436000280000652665014010111527110508682444360082800008997700120501116306529))))))
 (.node 16 (.node 8 (.node 4 (.node 2 (.node 1 (.leaf 7493444360082800007903700120501115712140070364443600828000089216751305011160675371059242236008281972737647521050111743390310592384360082800007907625150501117848211105923463600934000076874502205011083834231059244436008440000760147521050110831830810592444360083705468726475210501108630885105921613600858000087995002005011165802020681544436008580338869450020050110805054105125444360082800008641500200501107673197051254443600585000067374502205011179296170681444436000011390505345022050110822249905125444360080700008853450220501107340122105924443600824000088994502208011166476701059244436008320000873045022010110768059010592444360083200008706450220501115805834)
 (.leaf 1404444360079000008754550180501107903344042104443600828000088884502205011164543100000044436006640000894057517050110736187500000444360079300005991450220101107840596002384443600000000059454502205011171988280023844436000000000625845022080111610150403236444360000700005945450220501114730517032364443600777000061384502205011162921390000044436008070000435245022050111692884503236444360080700004502450220501116356120032364443600845000053614502203011074996890323644436006860000490345022050110732100105240444360027300004279450220301116351696063624443600845000032264502203011170135770000053236000010000204845022070110684969603286444360084500001277450220301107167996))
 (.node 1 (.leaf 444360084500001115450220301116552214000004443600845000012174502203011069865540464644436006560000111545022030110696028504646444360000000000395450220701115596537011654443600000000004714502207011071956310327644436000100000283445022070110738352400483444360066416522020450220701107281394008524443600215000035744502207011068998300617544436009340000499645022070111667572804989444360002600002783450221001117035381045514443600215000039505251910011080769070507644436001040000603052519070110815204105032444360038400007151500200701116799734049584443600807000072354502207011076321430537944436001760000409352519070111617079105722444360001900005480650141501115751859)
 (.leaf 4173444360002600002145550181501117001189036034443600026000022575501815011155924651059239436004860000279357517080110767090400000626360057600003777575170701116976370000004443600072000027825501808011079237170000044436008350000475845022010111624347800762444360063400007366450220101117385941007624443601115000071873902505011084766420512644436008790000640652519010110874579804766444360068900003335575170701108065462014044443600689000035965501807011081176571059219236006890000367255018070111707587004251444360002400000732450220701108624805000006263600024000007274502207011079368610382644436000240000073245022070111643016003845444360002400000721450220701108150333)))
 (.node 2 (.node 1 (.leaf 1290444360002600001182575170701107957710001304443600024000001404502210011154343330566944436006890119355960016100111619287404864444360068900003610600161001117313612050044443600689000041535751701011175177910583044436007040000718055018010110804088010592444360080318497652575170501107649841060004443600885418760714502201011159678340822844436008280000889945022050111628917107900444360082800007793500200501116317649074624443600828302377675002005011163973361059242236008280000774050020050110854528410592422360090100007601475210501116329633105923843600828054177395251905011085500771059244436008793161881845022140110859409605402444360082800008853450220501108741068)
 (.leaf 5402444360082800008801450220501108228839105921613600835000087264752105011164224181059216136008280735861445022050111605906406815444360083500008678475210501108009457068154443600824236588685251905011078157540512544436008280000729745022050110764217105125444360000000006298450220501117575263068144443600000000046894502205011086082450681344436008320000887245022050111579600505125444360087205418931450220501107110518051254443600870000089314502205011164277451059244436008650000881845022050110738537504236444360087200008916450220301107875071014044443600901000089164502205011173636950421044436007770000884952519050111645502900000444360088500008818450220501107861854))
 (.node 1 (.leaf 238444360000000005757450220501116323418002384443600000000060414502205011079219680000044436000000000613845022050110787428400000444360070900006319450220501116128053031214443600807000049944502205011081574650000047836001830000695645022050110714686906362444360002800004020450220501107873074000005323600000000022404502207011157654280000054536000000000096245022030110769416103286444360027300002661450220301115229043000004443600845000007414502203011068248140000044436008360000123045022030110751590004646444360010400000589450220301116464078027574443600011000008364502207011077855420377544436005490000292245022070111600857704693444360096600003576525190701107826394)
 (.leaf 4979444360036600004524450221001107703280049584443600807000037704502207011079726491059239436008250000393760016080110812265300000447360017600002625525190801107773843007624443600413000038546251501011169937050355544436010610000724037026050110783944601404444360107300006665575170801108099140014044443600689000065126251509011084156470140444436006890000632862515070111673618604766444360068900006265625150901108232205105923343600689000064856251509011080831351059219236006890000364955018070110815508203800444360002400000679450220701108369208000006263600024000007214502207011082199070000062636000240000139245022070110817050804849444360002400002846450220701115116995))))
 (.node 4 (.node 2 (.node 1 (.leaf 4686444360002400002149450220701115873431045714443600024000027834502207011149910780106044436000260000018757517070110814585004938444360115900005612500201001115112979070154443600247259369415501810011166196451059243736008711488651147521050110723628506099444360083509076170550180501108228672088094443600828000089574502205011084868370854244436008280535791057517050111758822710592444360082800007813600160501108554593105923843600828011888014502205011177292041059216136008360000867847521050111779847605125444360082800008614450220501116048730051254443600000000065424502205011087371531059240836000042845547745022050110835057906813444360084903328836450220501115712604)
 (.leaf 5125444360082800008885450220501107411822105920293600871000089574502205011076045470464144436008480000888545022050110771766004641444360082500008916450220501108084711042364443600862000088854502205011085941000423644436008420000878145022050110833035304236444360081900008916450220501108448674014044443600853000088145251905011085315320491644436008030000881845022050110800368103554444360083500006767450220501108460478052404443600000000055604502203011166357570000044436000240000491245022050110801017000000532360000000002715450220701107522204000005453600000000010104502207011168444700000044436000000000224745022030111696888503982444360000000002315450220301116494608))
 (.node 1 (.leaf 3553444360018600000680450220301107452778000004443600048000006444502203011172972850000044436000000000068045022030111490163204646444360000000000367450220701107710266027574443600009000017834502207011170115840469944436004420000343147521070110798946104461444360094500005395450220701116522813051804443600807000043314502207011084115480400944436000260000183855018150110811217910592394360029300003595575170801117437097000005653600835000031126001608011169495980000044736003490000380452519010110796240902445444360002600003473575171001108108578035554443601141000074443902505011085950530512644436007770000862139025050111759993201404444360066400006827500200501116574645)
 (.leaf 1404444360068900006425625150101108544903105924443600689000065886251509011166326320476644436006890000639762515100110875028810592313360068900002912550180701117315224015764443600689000029605501809011081701370011644436011410000115345022070110908534703142444360002400000608450220701116051456040974443600024000006994502207011162973560000062636000240000197245022070110809335601685444360002600000806550180701108014295064004443600028089751606501405011159084300585144436005850000491457517050111592426005438444360068905305464525190101115913775062204443600856232371515002005011163601211059222836006980000650460016050111660631810592228360082407216451575170501116993117)))
 (.node 2 (.node 1 (.leaf 10592228360079924636020550180501116300523105924443600828000076864752114011082419121059242236008280000776847521050111658209510592384360082805308870475210501108234455105921613600908072188344752105011167996371059216136009291471858847521050110867575410592161360082803298910575170501116117009105921613600828120989807001205011164812131059216136008280329746150020050111602759705125444360082824637235450221401108028303105924083600022225961434502205011087416701059202936008820000894445022050111065998110592029360083600008957450220501117577835046414443600832000089674502205011158716030423644436009910000891645022050110882827304236444360087900008885450220501108216729)
 (.leaf 1404444360101300008899450220501108102570014044443600925000088534502205011176395700491644436007820000888545022050110801967503554444360080700006997450220501108060068000004783600793000061774502205011168732710524044436000000000606945022050110788338100000444360000000004626450220501108495593000005453600000000020554502207011169541420000054536000040000022945022070111688116900000444360000000001747450220301116085552035534443600000000022474502203011078540970355344436000010000172845022070110787902303554444360000000001557450220701108431648035544443600000000012254502203011082476740464644436000000000055845022030110769222604646444360000000000558450220301107934213))
 (.node 1 (.leaf 2757444360000500001996450220701107755585038824443600807000032874502208011154615820611944436001160000424547521070110829434103217444360088500004030450220701115930348072754443600807000088854502210011085424220400944436001000000207652519150110818211600000565360070400003606600161001108232665024454443600028000028495751710011081886460244544436006340000733845022010111622999700762444360113700008166390250101116328267014044443601159000087384502205011086232540140444436011140000853045022010111736661001404444360077700006545625150101108740845045594443600689000065126251509011164004441059231336006890000509955018070110830155900000626360063400002877475210901108418178)
 (.leaf 444360114100001890450220701116093852037074443600024000007134502207011085508070409744436000240000256845022070111635823700000550360002400003179450220701117519240066544443600025000062775251907011169022670601344436000260000479457517070111676875900000444360002600000520575170701108598376026294443600026000019825751707011163629450726244436008240887778365014100111575832105907444360082408877704650140501115849527061254443600885052361734502201011158140860769944436008280000900062515050111518900408513444360082800007819525190501108937846105924223600828145776575002014011173457731059242236008280000771845022050111772381610592422360082813227547500200501108841260)))))
 (.node 8 (.node 4 (.node 2 (.node 1 (.leaf 10592384360082800007686475210501108582271105921613600828157988495251905011084475381059216136008281695759850020050110813941106815444360082814577235450220501107935133105924443600069071161434502205011084123231059200036008460000894445022050110859024310592000360083700008957450220501108591269032904443600807000088184502205011082396200423644436009980000887245022050111663131604236444360091700008781450220501108204266042364443601116000089444502205011174820270489144436008780000887245022050110810935904916444360068900008763450220501108096018000004443600634000086654502205011081745490000044436008070000699445022050111716290906814444360000000006689450220501116123265)
 (.leaf 1404444360000000006598450220501117174162052404443600011000064954502205011169158300000054536000010000029645022070110840061400000444360000700000244450220701116986918035534443600003000017834502207011172376390000044436000050000036745022030110772920404646444360000000000558450220301107972768046464443600000000006354502207011080538050649544436009570000499950020070111673357806156444360095300005621525190701116347138061194443600919000051085251907011160267860565444436000010000372545022070110857866302734444360043100001858500201501108383664000006263600384000052065751708011174796360000062636000260000306550020010111724443500000536360055800002909475210101115711298))
 (.node 1 (.leaf 762444360011300004361575170101108472323007614443600634000077484502201011083065470446544436011300000860539025050110874798105126444360068200008511430230501108922365051264443600771000088014502205011173951600140444436008710000857645022050110904601301404444360115900008719550180101117427354045594443600689000051776251501011162294600455944436006890000507260016010110858576404766444360068900006588625150901108546210105923343600689000067086251509011084978831059200036006890000653960016090111774136210592000360101400006376475210701115988081002334443601013000036164502207011085882060000044436011410000117145022070111660528600131444360114100001171450220701116827942)
 (.leaf 4647444360002400002641450220701108968316000006263600024000027594502207011085386970000062636000240000277245022070111603261600000550360002400004034450220701108388702000005503600026000048925751707011173649980524444436000260000423057517070111718382600000444360002600001388575170701108404032030144443600026000022215751707011085327830451744436007930000476960016050111729626506660444360084200005588575171001108820021059134443600819248756905002005011158570310715644436007790517565755018010111891065006311444360068900006058600160101117641519062944443600766000058935751701011089395040802944436008280000776062515050111637395610592444360082800007602450221401108878244)))
 (.node 2 (.node 1 (.leaf 10592422360094800007821475210501117817381105923843600828197875204752105011177507101059238436008280000771845022140110880571610592161360082811788801450221401108942121105921613600828197889597001205011163480141059216136008280703886557517050110799064410592161360079900007297450221201116250128105921613600828000077797001205011085507871059216136007930323737055018050111696212605125444360082513127057450221401117783108051254443600782102567374502205011091916181059244436008071561614345022050110869932710592444360080307038321330281401117165005105920003600929000089574502205011090216140329044436010040000891645022050110840030901404444360098000008837430230501117488033)
 (.leaf 4994444360102205178836450220501108584462049164443600771000087634502205011160971120355444436008070000711645022050111598513605125444360001000006495450220501108128003000004443600004000018034502205011162412320000044436000010000067245022070111585748400000626360000000000199450220701115717138000006263600000000001814502207011082258820000062636000110000019945022070111583914300000444360001800000157450220701108394800000004443600001000037714502207011171281910000044436000000000357445022070111725799300000444360000100003494450220301117136291035544443600000000021094502207011083650250355444436000080000094645022070110828478703554444360001600000244450220701117128398))
 (.node 1 (.leaf 444360000000000470450220701107990753046464443600002000018334502203011158972300360544436000000000169845022070111700422904807444360000000003287450220801115146310061564443600955000049405251907011170972720355544436008240000794045022070111762540808090444360095500008097450220701108696994062964443600956000087264752110011165656020000044436002730000572752519010111695965500000626360060100005112525190801108177801000005363600026000032835002001011084980790000044436000260000379357517010110841361400761444360094500008764430230501108730617051264443600656000084884502201011087438360512644436010080000874843023050110897767301404444360115900008988500200101108612822)
 (.leaf 4256444360068900005166600160101115999175042564443600689000065156001601011172355651059244436006890000485260016010110866167905040444360068900005166600160801116342447000006263600634000050494502209011086151420093744436010780000359445022070110868071500937444360114100001328450220701108410496000374443601141000011624502207011095675150029044436009540000090331029070111716975900000624360002400004536450220701108558591000005503600025000048745002007011086754201059206036000250000480450020090110830554204022444360002600002484575170701109096245024244443601148051141525251910011157879900614344436006560000623062515050111730368007865444360082400007198575171201116424075))))
 (.node 4 (.node 2 (.node 1 (.leaf 8836444360069803198940575171201108274687092174443600621000089655751712011164805200631144436006890000635460016010110852921206313444360068911636321600160101115848458082924443600828086278396001605011164851780802944436008820000782050020050110861822706516444360082800007598500200501108782040105923843600919031988945501805011173387151059216136007990862881647521120110910297110592161360082833717858700121401116575293105921613600828051178366251505011175285391059216136008461163771157517050111739832910592161360082434537709600160501116051534105921613600824186673075501805011081863820512544436007773905709150020050111710455805125444360082810156939450221401115862554)
 (.leaf 5125444360082512997057450220501116149399051254443600349263857884502205011088100871059244436008282279596243023050111740523109914444360082832538129290301401108686187032904443600742000084243102914011088725640329044436009980000868537026140110836925110592444360088505118711410241401108980748105924443601043000087963902507011084576670140444436011260000898645022050111608224204994444360103300008885450220501116336930049944443601033000089164502205011163988040681444436007660000883645022050110862787206190444360068600008528450220501108350527049244443600719000084624302305011083579300355444436005850000693945022050111609470205125444360014800006382450220501108421484))
 (.node 1 (.leaf 1404444360000000004758450220501116078599000006263600000000002444502208011175047840000044436000000000024445022070111600049000000626360001000000157450220701108217936000006263600000000001814502207011170263680000062636000190000012445022070111692713500000626360000300000345450220701108517336000005453600007000009374502207011086316460000044436000180000026745022070111698411600238444360000000002978450220301108871765000004443600000000001814502207011079987400464644436000010000215245022030111708305003465444360000000002454450221001115481544061304443600170000046814752107011083403270615644436000240000462447521070111597357703555444360062300006782450220701108628172)
 (.leaf 7636444360098400008317450220701116004447070214443600949000087804752110011161355890608644436001480000626255018100110826087504184444360002600002042550181501108583359000006263600293000062875002001011083901890000053636000260000394650020010110841043305697444360077700008471370261201116176889031934443600643000088815251905011174468270440844436010660000625050020010111717934804408444360068600005553600160801116079813042564443600689000049476001601011158691030504044436006890000658960016080111628575705040444360089800006619550180901109145445105920003601159000043833302808011175123420000062636011590000438333028090110902271300937444360114100003626450220701117263773)))
 (.node 2 (.node 1 (.leaf 444360114100001128450220701118281102000004443601141000011534502207011098087500625644436000240000491245022070110882179410592060360002600004971550180701118029816004204443600996000048965251909011170592280480244436000260000320457517070110854153300000444360115900005377500200501116012435067484443600828335569875251910011166367860766244436008372034732143023120111598534109941444360065600009007625151201115921272081624443600803357388695002012011157262900737544436007420682632555018050111628021307037444360077919416390575170501115480999075734443600771011365305751705011162424690936844436008280682786860016140111647912908554444360082800008870475211401116643948)
 (.leaf 9568444360085800007337390251201117269578105924443600828100576525751705011164484191059242236008280846755045022140111757882910592422360082823977602450220501116162324105924123600828100577365751705011088365611059241236008281287771255018050111754453310592384360082814137683550181401117579210105921613600709100571344752112011083237571059216136006860682723545022120110846466405125444360074212877057450221201108433938051254443600793031671164502214011171494991059244436008192034583339025140110860730210592626360100619418625370261401108536967105924673600934000084243102914011089801110892444436009930000869937026080110855627706019444360097900008618350270501108315007))
 (.node 1 (.leaf 4891444360079333128488450221401116500849068144443600664000086654502214011086170860619044436006892112838841024140111659958504924444360017623976693450220501108759523051254443600000226266014502205011158318150000062636000000000146045022070111739023700000626360001400001917450220701108945494000006263600001000001574502207011090536520023844436000070000019945022070110880651100000444360000800000157450220701108506804000004443600004000002444502203011081952540023844436000000000136745022070111627675800000444360000200000367450220701108199899000004443600001000006094502203011084283040000044436000140000111545022070110890987600000444360001600000181450220701115922241)
 (.leaf 444360000700000322450220701115991402000004443600000000002444502207011157270370464644436000000000188045022030110842842805383444360089000006096450220701116328121061304443600001000038764502207011173831970355544436000100000238745022070110845601501220444360025700007748500200101117448957000005363600215000038715002001011087259330000044436006340000716845022050111722778700761444360063400008020450220501117363013056974443600766000082953902505011162927200462644436007190000845839025050111592170403193444360112100008836450220501115954084031934443601037000086654502205011162627300455944436011590000866545022010110902409704408444360063400008816475210101109146741)))))))
 (.node 32 (.node 16 (.node 8 (.node 4 (.node 2 (.node 1 (.leaf 4256444360068900004617600160801109941112004024443600865000008642903007011160668170043644436008650000086429030070111669364710592436360004800005219575170701109082166000005503600057000049695751707011173409801059206036000260000490857517070110881180110592060360002500005984525190901117601413004204443600486000047805002009011160503800042044436011410000628045022090111622355900000444360002600006403575170701108517545057604443600026000041495751707011089065790701944436008584173713739025100110898115707920444360084917367091500201001109170898101434443600585011289926251512011087728610898144436008243830760147521120110908277109479444360082829508894550181401116940927)
 (.leaf 10592292360083620148818450221401116152648105922923600828049677655501814011175609981059241236008280313783662515050110913023310592412360082804967652575170501108892657065164443600828182975504502214011165289671059244436008283271723545022050110908025210592444360082841618927550180501116229369105921613600836393489836501405011088791911059216136008282096780670012050110934010210592161360068929818528450221201109038747105921613600714173684384502212011173866461059216136006890000699745022120111686748305697444360070420146641450221401109038793056974443600148011268134502205011163630651059244436008420994515527031140110878874110592444360083701128223290301401117168424))
 (.node 1 (.leaf 10592000360080704968553390251401109434754105926263600828011282683102914011088533521033344436009110112847933028140110896543509137444360097800008555350270801117285581105924443600878113784253302808011174847181059241736006561928831737026140110882909600000444360070416338152430231401116005683051254443600819031382414502205011158563900023844436008070667681345022050111740732301404444360000000002241450220501117070702000006263600014000001994502207011085182060000056936000640000123445022100110846638000238444360001400000261450221001108487924002384443600009000002184502207011169877950048844436000320000034545022030111583094500000444360001800000357450220301108702144)
 (.leaf 444360003200000367450220301108751373051254443600000000003224502203011156979570000044436000070000034545022070110864330004646444360000900001756450220701115722715028934443600005000020914502210011157185840541344436009820000569050020070110852348103555444360001300005311450220701115908385032924443600689000026845501801011157970620000053636006270000486047521010110934923600000444360028300005112525190101117848793052004443601159000088184502201011091887700440844436007820000891352519010111643166802932444360068900006666600160101116243923000006263600972000050965002001011094257030000051436006340000504945022080111747710600000514360063400005049450220901117688919)))
 (.node 2 (.node 1 (.leaf 472360114100004726450220701108662534007444443600986000009323302807011090419580047744436009230000084629030070111567514010592444360020700006014575170701109121767105920603600026000050285751707011175169580000044436010980000490045022070110884168200000444360054900005969575170701116049550000004443600334000071445751707011171863230577544436000260000453757517070110920207506478444360002600004830575170701116681498060064443600015000046585751710011169422050911444436008583454757247521100110960194110209444360063903099008600161201115607484105922923600853065286834102412011164364251059229236008280309776062515140111649918910592412360082800007686475211401109409837)
 (.leaf 10592412360082808307596525190501109151362096044443600824000075234502214011177720061059244436008282299729745022050110934643310592444360077139127358450221401109092032105924443600846222990337001205011177521341059216136007092080869450020120110865652310592161360068922998488450221201108784519105921613600799330684384502212011087516121059216136008030830693945022120111757536405697444360002831084827450220501108950467105920453600825181653833302814011087236771059200036008371260802527031140110940545210592000360083612607981270311401116209429105920003600835048881292903014011164139161059200036008240984812929030140110931250903290444360087206528188290301401109235883))
 (.node 1 (.leaf 10557444360083600008302290301401115925160104834443600837000083793102914011090368090913744436008280000853935027140111596864909137444360083500008466330281401116203701103474443600958083083593102914011172708441059244436008441912783125032140110891287510592127360000013834827450220501116264714002384443600055000044234502201011164826510000044436004310000691545022050110890978200420444360000000005945450220501117055855002384443600000000038694502205011091056250000062636000000000396045022050111645506000000444360000200004815450220801108487807000004623600000000011814502207011160472930048844436000030000034545022030110890785400000444360000700000367450220301108629753)
 (.leaf 5125444360043100002189450220301108493750051254443600853000003834502203011167329060512544436001040000039545022030111588987205125444360000000000357450220301116101221051254443600000000002444502203011172094570070244436000060000011545022030110882431700702444360000000000115450220701115920844007024443600000000016604502203011157649120568844436000200000347647521070110888091203555444360079300005477450220801117592056035554443600928000051734502208011162460790592144436000050000468845022070110883261604278444360036608222706500200101116330564000005363600601000050295002001011164611620000053636006050000616955018010111751180500000444360002600005998575170101117856191))))
 (.node 4 (.node 2 (.node 1 (.leaf 3726444360064300007838450220101117546342039694443600621000084384502205011177084830589144436006980000840839025050110947473002445444360062100008710450220501109024448044084443600634000088854502205011091177850425644436009610000901055018010111783976304256444360091500006210650140101115646375029324443600664000053676001601011089371270360744436006860000540160016010110870877805126444360115900004466330280901110870451000004723600634000051414502208011170874670029144436011410000245845022070111734585500394444360111900002030430230701116859368055904443600186000063356501407011088913410510944436000000000627070012070110971986710592241360055800006407600160701109382432)
 (.leaf 10592444360068200006313575170701109427938105920603600024000047634752109011174531360023844436000260000719657517080111589066200238444360100000006132525190901115982494061024443600026000050775751707011093465890730344436004130000582157517070111592714306895444360085822145408450221001116249426083374443600870287858563902510011176325810557144436010320110727350020100111615379107154444360090417067273500201001115977817076074443600865030684884502210011159466160825444436008674107723545022100110945418510592444360070414869019500201201115194253084314443600828000089255751705011157260930885244436006690000898365014140111595126108500444360063414868921675130101114864922))
 (.node 1 (.leaf 9819444360082812508836450221401109246288097194443600848082288034302312011090838910960444436007900000773362515050111607841610592412360082800007602450221401116149986105923623600828125075705002005011178459001059220636007142911860050020120110868355510592161360068624168573450221201117222135105921613600779125068844502212011171450840512544436008072466699745022120111585524605697444360010022146426450220501109016480056974443600148291145494302305011161825161059200036008390110505829030140110924721210592045360083711088188290301411116120258105920003600719082280252703114111095920531059200036007770647835833028141110927055409997444360078200008288310291211109005719)
 (.leaf 10311444360077906478591370261211116041866105920003600782082286533702612111175335311056744436007790647824129030121111649950310567444360083609758201270311211117639814105921273600009000037714502205011164041990244544436000130000566245022010111751529310592444360000000002218450220501108677246000004443600001000021434502205011160849550000044436000000000303345022050111646513000238444360000000003235450220101117851547002384443600000000040284502205011178258080023844436000000000459345022050110889272000238444360000000004504450220511109156783000004443600010000040774502208011086539390055444436002930000040245022100111705146900554444360000000000589450221001116341465)))
 (.node 2 (.node 1 (.leaf 238444360002800000518450220301108712074002384443600192000010144502203011158824740000044436000010000111945022030110859442405125444360048600001813450220301109425895051254443600007000003284502203011090337710560244436008700000494450020070110911749207787444360000800004584450220701116806797042784443600779000020984102401011092169050000044436006640000471955018010110920181310592415360066400005471450220101117501194000004443600664000049844502201011173408170000057836006010000573947521010110991064200000578360023200004220575170101109465071058914443600592000084384502201011164673580425644436007140000888652519010111602482302932444360084400007528500200101117408175)
 (.leaf 4894444360089000006162450220101118251902048944443600664000073063902501011088788650512644436011590000694731029080110912809600000514360115900005263330280801109473752046104443600634000053384502208011093144070000047236009300000500543023080111608166500744444360114100003616450220701117260725022764443601138000036264502207011090349530682844436006890000653657517070110918160110592241360038400006514625150701109276537000004443600477000062835751709011095142241059206036006340000507555018090110904356700238444360003300005694525190701109029376002384443600549000064885751707011090603500698544436000210000612565014080110896103906705444360068900006039575170701109815588))
 (.node 1 (.leaf 9337444360091801097550450221001115886797078784443600898064271164102410011178973310945144436008672268714743023100111793350110592444360083709638905410241001116597406100644443600639349788975002012011154699661011144436006890302894445022120111633653209944444360079030868968500201201115708853103824443600779000089764502214011164713220981144436007821240898645022120111620311609389444360074212408911550181401115942539101724443600639226887454102412011159753150944544436007791240856841024140111623052009819444360063414738712430231401109397871105922923600828000089826751305011097034091059229236008240000749052519140110917305010592091360068940377297450221401109242452)
 (.leaf 10592444360068625078665450221201109428136105924443600807109689216751305011091659901059220636008252507838345022120111747697210592161360084436518710450221201115884144105921613600771124067374502212011087276920512544436008032054673745022120111710023510592444360082510967057450221201116582702056974443600113096369394502214011093445180569744436000330302409845022050110975372210592000360082804724503250321201109116506101474443600771096383223102912111092604640962244436007710000852337026121110919834910516444360077700008625370261211116314545102234443600782000086023702612111156996601047444436008031240864037026121111583633010567444360081908138143270311211109465261)))))
 (.node 8 (.node 4 (.node 2 (.node 1 (.leaf 10131444360079008138306310291211109294300101314443600634239578812503212111090571211059244436007990963644635027140111737539110592217360077936516266330281401115944792004204443600022064261674502205011093915891059244336000201473455845022050111590439700000522360001400002035450220501109044089000004593600689250778954302312011088444960023844436000000000489545022051111569981000000568360000800004583450220511117205323000004443600000000051204502201111079610180000046236000260000362645022101110952829803374444360000000000573450221001117274392004884443600000000003454502203011085829650048844436000550000038345022030111712462705125444360000400002510450220301117264614)
 (.leaf 5125444360000003023798450220301108799494051254443600000000044355002003011162350670512544436010070000383747521090111692947005125444360068200004125450220701108629694007024443600226000012344502203011090232960136044436010190000547045022080111556868106182444360036600007320475210701109249299035554443600871000047074502207011159276050631044436000040000425745022070111600810204068444360068900002534550180101115901571105924153600858000047215002001011096352470000057836006430000500847521010111820737000000578360056700005516550180101116429371039694443600026000057645751701011171215440355544436006050000802345022010110976884405125444360070938718477350271201109282996))
 (.node 1 (.leaf 5125444360069800008915475211201116044692044084443600634000089774752105011158685361059244436006820000897557517010110969144605126444360115900005511310290801116941554051264443601159000056693302808011093004850461044436011360000523735027080110934594604610444360114300004951350270801109243316041384443601159000044783302808011159853590413844436008700000509345022080110899854202455444360114100004676450220701109714020105920603600656000061565751709011096215290023844436002320000533152519070110959852400238444360068900007799575170901109337040002384443600467000062786251509011092585770698544436004500000607762515090110937405207017444360052800007183625150801116726090)
 (.leaf 7327444360014800005151675130701116665240094324443600000000066527001210011154464441059233136008450299757543023100111665696409610444360077110867550450221001116245161087004443600875403988524752110011163940840982744436006821679883645022120110931569810592070360066408038954575170101118145897105923743600766010889246001614011162044101059237436009380299894447521120111605943910592292360082801088940575170501109500729096044443600819108676845251912011175437550960444436007820299883645022050111610633209604444360082804618816475211201118022407096044443600828063688004752114011095960811059219836008251086880047521140111745698410592198360082432708847550180501115975672)))
 (.node 2 (.node 1 (.leaf 10592362360080717697370550180501109039193105923623600777108671164502212011172972041059244436007093425749545022120110896846210592444360083204618935675130501117546019105924443600704238085284502212011090956791059220636007712180849947521140110897504510592161360080326428528450221201115908081056974443600033259261674502205011094757121059216736008351460462225032120111587731210592000360063409516223250321211109033411105920003600719046183182903012111090858261028344436007710000830631029121110948315709622444360077101087122350271211117220716097634443600803000085283502712111159889930986244436008350108832231029101110913136010180444360083700008516350271211115872295)
 (.leaf 9721444360068223808748430231211109044435105924443600592080390246751305011098294710718144436005054069644539025140111645942200000451360083700006028310291211117333859000006263600011000009064502210011088819680166744436000030000043645022100110888667100000459360080700007209450220501109033997000004443600423000060494302305111090472130000056836000000000456345022051110931395100000462360007200004373450221001109295313002384443600709000012254502203011170996830508744436000000000145745022031111702586303343444360000010861288450220301116985705051254443600000000033234502203011091843030512544436000270000539045022050111577257302445444360055800001314450220501115841501))
 (.node 1 (.leaf 702444360085800001762450220501117305540007024443600001000016994502205011157769860285044436010670000714945022070111589271604944444360066400007701450220801115472046030964443601125000080644502205011159377570605344436008530000716850020070110948823204273444360060100001913550181001116162656105924153600714000048015251901011093951820607244436006010000552250020010110976423300000578360030700003454525191001109076590000004763600026000034835751701011092899900355544436009720000824045022010111825445504003444360091500008528450220501117517058051254443600819000088724502212011097372360723744436006340000897645022120110953151407020444360105600008896430230101117402384)
 (.leaf 5126444360115900005813330280101109705768029814443601086000055563502701011099611480244544436008700000517945022080111752458210592444360114100005120450220701117430934057814443601099000061895251907011094965100000044436000000000776970012070110951053600761444360068900007503575170701109796111105924443600027000055665002009011173982650023844436008190000612857517090111763898006835444360003300005864700120101116620932093264443600000000065627001210011163153300913444436005580000739550020100111589476409207444360082440887190475211001116114596076094443600862396372075002010011164944611034544436008494180889847521100111756468810592280360082507938884475211201109592134))))
 (.node 4 (.node 2 (.node 1 (.leaf 9648444360071431658897500201201116462762105920703600639000088665501812011097589771059207036009010107898462515140111615691910592292360082806318870475211201109717384105923473600790029589516251505011179596520960444436008250000883447521140111762317009604444360082800008801450221401117385207105923623600777175869974502212011179338821059209136008452805852845022120110936473310592091360083234338801450221201117484237105924443600844079388004752112011093805021059244436008031758852845022120111606242510592206360079314488584550181201109024025105921613600824216383344752112011090298731059216136007662425852845022120110918775410592161360070401076939450221201116734202)
 (.leaf 10592444360070925296997450221201115713393056974443600766193759403502714011093181621059216736006390107498329030120110911968410592000360066420955057270311201109083337105920003600837010784913502710111095493431059206836007791662680831029120110949852009622444360071920955201290301211117361204099434443600836000084773502710111154477651059244436007092529869539025121110932587805696444360066906318866550181401109632721000004443600000000038714502205011173641250244544436005401329408039025050110961729100000522360000600002915450220501109427158000005253600005000017824502201011158016020000044436000110000057545022100111631316500238444360071900008031450221201117558575))
 (.node 1 (.leaf 444360082414485940350271201109195044000005683600014107654054502205111160214020000044436000000000272345022080110895199403554444360000000000367450220311117230106050874443600000044807354502203111090684370512544436008531555516245022140111589262605125444360101204482606475210901109037142024454443600954000028694502203011091275080244544436000050000196545022030110890903302850444360061700003613450220301109422750050374443600832000077004502205011158126850309644436010540000789845022050111583491205786444360093300006205475210701116141671061124443600000000032404502207011094017840585644436008421448472045022070111731211504459444360043100001929575170101115774426)
 (.leaf 4459444360063900005069550180101110094129060724443600540000053935251901011176699610042044436006130000537750020010110988987100420444360060100005016550180101109462779000004763600026000032115751701011158840630140444436003340000686052519010110971011905643444360068902918801450221201109635143056434443600799000089076251512011096478500489444436006340000865041024120110947079305126444360090100006630450220101110012733029814443600973000057713302801011163415970298144436008280000676357517080110917979604151444360114100006537450220701117433735049624443601141000076145002007011095270840000047336000000000776970012070110963336700761444360022600006307650140701109331403)))
 (.node 2 (.node 1 (.leaf 444360078200006130550180901117834479000004443600824000076965251909011158093251059232736006890000612857517070111608230310592444360047700006342550180901115966766002384443600689000077995751709011157526141059237536006890000615657517090111801340610592444360000600006426700120101116322447105922663600944000061035501801011096366380868644436000000000578870012070110935679209352444360068906247572475211001117492910100194443600807266088825002010011178136010945144436006394117888250020120110953338210592444360084235878699370261201109385686105924443600782222290426001614011096590561039044436008822346900257517140111610720210592280360085841488977475210501116103994)
 (.leaf 10592133360071915418895525191201116237608105920703600613044589115501812011097536911059237436006390445897067513050110956838910592292360089700008940575170501117962817105923473600901044589275501805011173041351059219836007710291880145022120111613236510592198360078220048906650140501109403757105923623600704174184884502212011174506411059244436007424022883447521120111747710110592000360083927048763450221201116279370105920003600835062486144502212011095201491059220636007792222861445022120110913408010592161360071431268836450221201109179037105921613600719208385734502212011092168011059216136007040624699745022120110888697310592167360066400005842250321211115969063))
 (.node 1 (.leaf 10592000360076600005057270311211109335605105920003600837044586023702610111162876801009344436007040291792325032121111572643310592068360074228656411310291211109613774093924443600803000053743102910111097571230922244436008371926900470012101111610091909717444360083726118820430231211109549298000004443600634000061674502205011171945500000044436001640000434545022050111639802500000525360000300002797450220501116045734000005253600002000008574502208011093493300023844436000220000050145022100110971211700000444360070409297997430231201117279949065994443600000000016604502205011171973240355444436005170291345535027100110908080503554444360000802913951450221411117294271)
 (.leaf 5087444360000004451220450220311109133787051254443600170000022034502205011091890720512544436002260000212243023050110904217005125444360006900004964450220501117135847051254443600192000072804502205011159240730512544436008480000839545022050110955234902445444360099900002966450220501117526003024454443600989000033984502205011162570810309644436000010000168745022080110932380705889444360084500005648450220101116398617091594443600807000087974502210011160184250898744436008070000874945022100111581810603039444360068900002730475210101114996245043824443600157000031236001601011094265860023844436006560000549847521011111015340800000517360024700004285600160101115955774))))))
 (.node 16 (.node 8 (.node 4 (.node 2 (.node 1 (.leaf 1404444360010000005461575170101109542004072374443600837000088724502212011163597640702044436006010000876345022050110994790405126444360063400007986450220511116915200029814443600689000067486251501011165221460244544436006890000672362515010111813534902445444360069800006825675130101110029923050694443601141000077694502208011152105140000044436007930000742755018070110988068410592327360068900005918600160801115444754014034443600689000069835751708011174995280023844436001860000615165014090111588057110592444360068900006156575170801116242983004204443600689000058546001601011095751430736544436006890000618560016010111591588507308444360068900006211625150101116249855)
 (.leaf 7200444360062700006181650140101109730132083194443600867105869014102410011158595590883844436008370000713447521100111835849908829444360083204427010475211001110091770092024443600858061877954752110011161113720806044436008580105715150020100111586210908736444360080321357520475211001116532306100194443600807416788714302312011100730141059244436008883240865337026120110966899610592444360085615299033525191201116351287105924443600517182090366001614011175237601059219636008073735872647521120111755067510592220360077713058937625151401116116484105922203600714044290016001612011093719201059234736009070000892950020120110941967010592198360079000008893575171401117684949))
 (.node 1 (.leaf 10592198360070924518832525191201109600810105921983600686245184884502214011173382961059209136008073093723545022120110938643210592000360070925958710450221201117423945105920003600799254887104502212011159372011059216136007041421831745022120110912782310592161360076622748614450221201109171721105921613600779105883834502212011173782411059216136007710769705745022121110906775410592134360070401056997450221211115818132105921343600627000064264502214011160652181059213436000720105681345022140111632756910592000360077702875107270311011109199977095674443600835164087484302310111160287091018944436008350769891645022101111607258410592068360070413056134250321211115959175)
 (.leaf 10592000360070416406134250321211117383593105920003600742105867502903012111160164421059200036007191529529629030121111757376810592000360081904426234450221011109719957099364443600819028789435002010111160319740942744436008372070902370012101110992755509717444360083710588745410241211116051048092554443600807254888785751712111158807260569744436008070769561131029140111005905805125444360000500004210450220501109946009000004513600000000025524502205011094262400000044436000100000172145022010111557568700000444360000409212096450220501109257394000006263600018000004014502210011094170070000045936000030000130145022100110956360500000444360003200001660450220501109686769)))
 (.node 2 (.node 1 (.leaf 6599444360001100003144450220811109334716050874443600000152924534502205111158107320508744436008371820553831029100110929375605125444360000000004408450220511117132033051254443600000000042624502205011094833720512544436008491187849245022050110947943102445444360108600005040475211401109372304012184443600000000020394752103011093201410309644436000010000105347521050110926102600000444360045000006974450220501109266776082154443600807000087584502207011159932150907144436008070000889945022100111656681807318444360091100006205475210701109314833064584443600001000032294502207011160691240356044436002320000216660016010111568682504137444360007200001921625151501115924751)
 (.leaf 238444360078200004456525190111109761361002384443600771000054294752101111103486660000051736006640000507845022010110966673000000517360066400003784550180101109674663052314443600592000070174752101011099864930523144436007710000846243023120110990052107068444360083200008781450221001109943946060374443600824000089764502212011161665250602344436007040000893145022120110971508007029444360077100008993450221201110185632070204443600842000088834302314011095558431059244436006690000630052519010111007744010592000360068900006654625150101116097951014044443600689000068046501401011096267390512544436008710000668050020080110996186704151444360114100007890450220701117575076))
 (.node 1 (.leaf 4151444360114100007796450220701117510595050004443601141000077204502207011172501030485144436010650000631455018070111005391810592444360068900006464625150701117979357105924443600689000062466001609011162669800023844436006890000631160016090111633838801403444360068900006083575170901117510330105923273600689000056606251501011176546390592244436006890000549462515090111725341406158444360068900006214600160901116027100059684443600689000057336251501011177863821059215136007993292866639025120110996787110592173360050541408937625151201109945375103104443600639325189135251912011177775401059219636008392486786547521050111610415510592105360078229007075475211201110079897)
 (.leaf 10592183360093726788915475211201109806253105922803600891329289444752101011165971461059209836006891177889455018120110986267310592086360068610488972650141201109612866105923473600947000078445251905011172963401059234736007900612898462515050111777619609604444360077906128953600160501109932190105920913600742290087814502212011096484081059216136007711177859643023121110948245410592134360077900008614450221211115930965105921673600698061275792703112111094451571059216736007041715480825032101110936664210592000360079304398763450221011109961704105920003600719104851552703110111097530151059200036007191048553233028101110965456109469444360080300005915390251011109998073))))
 (.node 4 (.node 2 (.node 1 (.leaf 9374444360079900009011700121011109738577078384443600803000089856001601111159396190569644436000480757474745022120111028522805696444360003309133748450221401116164378051254443600017043934194502205011095300640000045136000210000122345022100111570441503222444360000600002538450221001117130565000006263600006000021084502208011176042670000058136000110000123445022100111731523200000444360001400000124450221001109367720000004443600148043940654502205011089954570659944436000060612405045022051110939847306599444360001906123587450220511109524864043974443600020000035414502208011093699000508744436002150000729745022051110929540805125444360000014104465450220511109244439)
 (.leaf 5125444360000800001897450220501109197492051254443600022000038074502205011157728160512544436000220000481045022050110963976005125444360089806128170450220801116210685024454443600000000043485251908011095008510121844436000030000170952519030110937175500000444360107000007780450220501115959306000004443600384000072114502205011094322360729144436008070000872345022100111608895606800444360091900005305500200701115994607038634443600689000027465251901011156561450363544436005170000188257517150111591044000000444360065600005408450220111116181200000004443600686000043195251901011161188620412144436001160000480555018010111050057305872444360082800008548430231211109668277))
 (.node 1 (.leaf 5872444360083200008895525191011116122283077434443600837000083783302810011178474000702944436008030000897645022120111066534207020444360014411668916450221201109957181051264443600634000079284502205011155964950512644436011590000560433028010111053478404970444360033400006300525190101110483328047974443600963000078744502207011098099860140344436006890000549462515010111762873807243444360068900006336625150101115999114080894443600000000065257001201011148674450819844436008581960715150020100111539453907645444360087006057010475211001115887272098764443600819336086354302310011161543941004044436007193747887245022120111590006810263444360054015089043650141401109899833)
 (.leaf 10592173360084236716324475210501110781430105924413600836302680404752112011100601811059244136007902472783845022120110994815910592105360074224248438450221201109923211105921053600698399188184502212011100407311059209836007421286884755018120111790325710592086360063400008960675131201116287285105921363600643103789236251512011178496411059234736008191704779155018140111602789009604444360080715086357550180501109526215105920003600766256883834502212011095085141059219836007713847871045022120111535145310592091360070435328383450221201109608358105920003600790332086144502212011103283671059200036007042925861445022120111735685110592000360076628298438450221201109624210)))
 (.node 2 (.node 1 (.leaf 10592161360077919608763450221201117436113101354443600799116688364502210011174261891059213436007790436871045022101110979035810592167360079000005438350271011109763320105920003600803000057223702610111173522510927144436008370278883645022101110976257210592000360077700008801450221011117867012094404443600832010386144502210111096692401059200036008240000763045022101110936645108798444360083700005930450221011116015369091034443600828116689697001210111097449980973644436007770000894155018101111610612610592000360066400008084350271201109450609056964443600025000033664502205011094314890322244436000020000189745022100110963164700000444360001309043446450221011109564670)
 (.leaf 581360002001030714450221011109715438054884443600006000002294502210011157919670000044436000090000012445022100111628050300000444360000700000140450220501109719430105924443600001000020774502205011173661071059244436004500605323939025100110950776605087444360000000002167450220511117348662050874443600334128646983902510011092916810512544436000260436594545022120110942050305125444360005500004174450220501109493981051254443600022000021524502203011157454080619044436000140000398245022050111585244306190444360011300005041450220501109520500051254443600888074980732903014011100135650512544436010140000469647521140110958243401218444360001900003343525190501116050744))
 (.node 1 (.leaf 444360042300006716450220501109459225000004443600592000047644752110011158668860697044436004770103809845022050111611067404484444360068900004597475210101114935927000004443600576000024095501801011095207830000044436008370000384147521011111731928700000626360070400002969500200111116055421041214443600777346081744502214011101646630603744436008350000887047521121111042522604397444360066400005962430230501110150266050004443601130000073113502707011159989321059243936008790000618165014080111013332100238444360068900006370625150801115752118058834443600540000056176501401011164905621001144436008373860891352519120111569901910050444360082840548872450221201115944589)
 (.leaf 10592105360085329098040475211201116205796105921833600832216050295002014011177816091059213636006560432849947521120111588182609604444360079910246450600161401109938641096044443600825365477424502212011100751221059200036008252350735845022120111631641410592000360083533708488450221201117266833105920003600742339983174502212011156185001059209136007993228831745022120110962313110592000360077118678763450221201109678653105921613600782169487634502212111097433711013544436007790597883645022101111627724510141444360077900008801450221011109790171105921343600779000087104502210111177278661059218536007990000596329030121111733592709271444360083200006234450221011109849292)))))
 (.node 8 (.node 4 (.node 2 (.node 1 (.leaf 9440444360080702738781450221011109873653105920003600777102459304502210111096608620879844436008280000593045022101111605761708289444360079900006071450221011117694798056114443600002000034894502205011103907600569744436000080000160745022051110971519405697444360002000002408450220501109774060000005533600002000017244502210011171427730322244436000640102066045022101111723833800000581360017000000553410241011115817230054884443600000000008984502210011154399550548844436000000000160345022100110981282910592329360002014940470450221001117277461105923293600000000019254502210011156077710508744436000600896466543023100111538108905087444360077701027174390251011115528641)
 (.leaf 5125444360030720307102390251001109691691051254443600069000040504502214111171297600512544436000691776334045022051110940164406190444360017011553573450220501109492464051254443600842000085494502214011093005510121844436001040000353052519050110961921203096444360010400002640525190501109572782000004443600064000039415251905011174725170647244436000000000743155018050110957598606319444360001900004207450220501115713302047824443600689000025994502201011176794670470544436006890000355960016010111591989404135444360068900002876550180101115580130042024443600307000021666001615011097184020000044436006820000482745022011111032077500000444360066900004480500200101115889306))
 (.node 1 (.leaf 586360043100002866550180101115760053045834443600835000088014502212111102068270666444436008240000885150020101111024666905872444360083700008866550181211110222955071574443600819000087834302312111102680270603744436008490000860237026121111603068306037444360083600008725390251201110124773105924463600719000089314502212011103863241059206136006890000871045022120111806171405126444360018300009007475211201110066291051254443600689000067646251505011180028680512544436006860000661157517010111030343003828444360063400006564500200801115834740105924443600689000062576251501011159557831059244436006890000586362515010111597532810592444360068900005933625150101115703687)
 (.leaf 10592444360068900005933625150101116126788057644443600334000052696751301011162677340582844436006890000564062515010111600724305766444360068900005466625150101115411441070734443600689000064756251508011157714400654844436006890000644862515080111535288707872444360024700006627675130801116424962061394443600689000074704502208011167556570851844436008583342720750020100111578313909296444360077102688665450221201114849542102634443600686315088014502212011159857741059244436008463846657247521050111061128210592267360078207377521475210501116239359105922673600793228179055251905011172604481059216336008361581486250020050111093369710592163360048629988641500201201110432120)))
 (.node 2 (.node 1 (.leaf 10592098360082518524744450221201117639258105921223600682366387985751714011101360481059222036007991263765257517120111603030910592347360079912637520475211201115922109105923473600771303576235501812011158704190960444436007902771762652519120111036488809604444360076639286140525191201115978598105920003600832268172354502212011107015941059200036007822837841643023120111586116710592091360070416848241450221201109498622105920003600704352384384502212011156566381059200036007792803843845022120111569255310592161360080716848885450221011110005221101354443600719000088204302310111175302921013544436008240000860741024101111574618710135444360070900008597390251011115895935)
 (.leaf 10247444360061700008619390251011116274734097344443600777000088695002010111159809860973444436007710000889455018101111762559810592134360077900008626475211011109686649105921673600779000088325251910111098774220944044436006130000635755018101111605958009440444360079900008907625151011115856431094404443600824000088825002010111159393760944044436008030000886655018101111768354509440444360079300008834475211011110649868105920003600835000062645251910111097240851059200036008350101768647521101111001565308837444360068900007219370261011109918054088374443600779059062344502210111103594130828944436008250000561443023101111731536709069444360061700006321250321011116121405))
 (.node 1 (.leaf 5611444360002608883656450220501109987487000005533600010000010764502210111172193060415444436000040000302445022101110996818605537444360056700007565450221011109852439055374443600828000052505002010111099246810553744436000040000310345022101110979423000000581360000100000124450221011109628310039634443600007000011994502210111098145130508744436000190000091345022050111601180706667444360019200005684410241011117207892066674443600837000073564502210111099474500512544436000330268730137026101110968360905125444360001400003819450220511109297431061904443600027000037464502205111095212620512544436008372217840733028120111009012205125444360084523988355390251401117254986)
 (.leaf 1218444360001600003775525190501109999305000004443600011000048025251905011095420760666144436000000000440845022050111594034604951444360082502625305500200501115827887040184443600656000024455501801011154982280000044436008460100395245022011111592935600000586360076600002355550180101117221132000004443600215000034695501801011179019770458344436008390000812341024100111079575207157444360068200008665450221211110542165071574443600689000085673902512111161077800801244436008320880897645022120111609343708012444360083200008967450221201110531833043974443601077000065624502205011164271650439744436008190000574339025050111839181500000444360068900006076625150501118205944))))
 (.node 4 (.node 2 (.node 1 (.leaf 444360068900006257625150501116004549054104443600689000063856251505011161350360000045636006890000597567513050111004843900000456360068900005804650140501109807356051254443600689000075046251505011179807260512544436006890000758862515050111766777101403444360068902626076625150801110287180105924443600689000063516251505011158964110728244436006890000564845022080111577510705917444360068900004984450220801115210519094134443600689253385284502212011174424461059214236006271134861445022120111006519410592163360085829855276475211201110239401105921633600824113452514502212011107121341059244436008242985688445022120111615342710592098360083233088263475211201116147981)
 (.leaf 10592122360077108807754475211401116198589105923473600714288759304502212011096828791059200036007423703617345022120111011634810592000360069835027602450221201118049962105920003600714321072974502212011099958071059200036007661998824145022120110963713910063444360077900008836450221011115817209101704443600627010087114102410111177461691014144436007040000891450020101111663858309734444360074200008984625151011110339590091544443600766000088646001610111162783881059218536007790880861445022101111562386410592167360079900006064525191011117367594091614443600828000088335002010111163185690883744436007820262728541024101111597858808837444360068200005663350271011110039937))
 (.node 1 (.leaf 8837444360079900006234450221011116012272088374443600839073261194302310111180463260883744436008074048601045022100111581655207455444360083600005864450221011109779537081554443600837000054084502210111157283930821644436008360100532639025101110994632710592018360080700006865330281011117563861000005903600007000025284502210011100872580000059036000210000160345022100110958276800000590360001600001747450221011117516924056914443600793000053484502210111096007250553744436006690000767855018101110973700102445444360000100000836450220501115718758050874443600000042522314502210011172419630666744436008370000659145022101111035901205125444360023200004864430231011117736563)
 (.leaf 5125444360005500004511450220511109601302061904443600322000048644302312011175102370619044436001440000504145022120111011378505125444360083502628064450221401110587590051254443600837000049584502205011179642150121844436002570000648350020050111612543100000444360000700004429475210501109752527000004443600870000088854502214011100173880000044436000000000387952519050111576180407621444360017615698098450220501117870155043994443600714284935706251501011165718811059244436008910000492347521010110995270202445444360081900003656450220111110040614045834443600842000085734502212011181931701059244536008360000852845022120111054218607125444360083500008665450221011116317168)))
 (.node 2 (.node 1 (.leaf 10592445360083500008801450221011117755166105924453600835000087634502210111103703800715744436008070000857345022100111582916310592446360077100008944450221201110339921068144443600742000088844752112011106187480681444436007790000900645022120111066722903554444360115900006610450220501109638568035544443600689000060136251505011099902430380544436006890000607662515050111802659105125444360068900007588625150501116140168105924443600689000078866251505011105383010000054836006340000656450020050111810378801403444360104000006678675130501116173600105924443600689000065286251505011103514580590144436006890000555062515050111604709206794444360068900007358450220501110643008)
 (.leaf 8720444360080325648568410241201115754168088674443600803261084164302312011155091421059214236001572876840839025120111001899610592163360085308725408450221201116016655105924443600842261066414502212011164007471059229336005920872588447521050111013149910592156360066900007155525190501116370210105921823600807206285734502214011102835121059218236008070999705745022120111633464410592182360080313527297450221201116389178105920003600689307857244502212011102880311059200036007663170564845022120111604593710592000360070432767358450221201110309886105920003600714397785325501812011157088491059200036007043986849947521120111718765910592000360077916588476525191201115407122))
 (.node 1 (.leaf 10592000360077909998539475211201115760823097344443600742000089636251510111109066110915444436007930422868857517101110982207009440444360068900006071450221011110109023094404443600790000089066501410111180055401059200036008350000881452519101111617304308837444360077700005743390251011110147144104644443600848000055304302310111158379681046444436006890574556445022101111730476910592018360055800005281410241011117549837105920183600803000067133502710111160007631059201836006820872672439025101110997404200000605360000000002584450221001110177140000005403600003000029204502210111100920150569144436008360000530045022101110997166405691444360046700007980450221011109592519)
 (.leaf 6137444360060100004959450221011115596270055374443600018000033924502210111100008930080644436000110000036745022101111562634705488444360000000994648450221011115797018000004443600009025518644502205111175941400508744436000000000183945022050111746783505087444360000200003255450221001110183852066674443600007009948834502210111096589580666744436008370000704545022101111035712605125444360001802554959450221411109929737061904443600014000044084502205011174994000619044436007040000477041024140110994394205125444360084802555191430231401110111534051254443600576135241714752105011098817970000044436005400000617945022050110995107700000444360085800008916450221401117610493))))))))
 (.node 64 (.node 32 (.node 16 (.node 8 (.node 4 (.node 2 (.node 1 (.leaf 6472444360000000005385500200501110316771085124443600486000088534502210011150928040463944436008350720445652519010111626996904972444360092812378476525190501115527789000005303600682000039885251901011160495601059244436008350000866545022101111623172810592444360083600008781450221011110385235105924443600836000086654502212111161164031059257036008320000883645022121111621635306814444360097100006652450221201118139751038054443600689072060766251505011113922140416144436006890000635162515050111809118103981444360069800005933625150501116097637039814443600689000065286251505011146649890398144436006890000644862515050111466450503981444360068900006354600160501114397479)
 (.leaf 3981444360068600005964575170501110070362105924443600689000062576251505011164173170479744436008701237537431029050111773711801035444360063900006326525191401110382165051254443600689000067486251508011102447431059244436006890000674862515080111752607607042444360068900006556625150501116287151070234443600689000069875251914011150229500620044436006890000707547521050111543389206347444360069800006813450220501110311595069204443600689000063015002008011102402320770944436006890000620250020050111030142908066444360068900006205475210501110161115084724443600837154754884102412011152003480881944436008371237596341024120111594186810592077360070416478781450221201110509617))
 (.node 1 (.leaf 10592254360078208617978370261201117819034105924333600825041884624302312011104347130960444436007714003778641024120111616631210592444360077704185429475211201110975489105920693600567181461714752105011102770831059232836007932116490445022120111604732210592328360080316478262410241201116007121105923283600766144780494102412011175934141059200036007662895723545022120111022165308973444360077935267116450221201115731298105920003600777099283834502212011099636911053844436006860562882043023101111608377810550444360066900008954575171011116235057091544443600790000088306251510111102491330990744436008190245894057517101111597756609907444360080700008815500201011117672143)
 (.leaf 9440444360083500006143450221011110220224091484443600828000071344752110111102306210914844436008350000601045022101111771488209148444360082800005941410241011115843141088374443600845009853263902510111174804730561144436007040000693945022101111012747505611444360059202457547500201011110302723056114443600022000040154502210011103653470000058036000170000316945022100111805462200000540360000000004207450221011117434558056914443600819000055844502216111158301050569144436003490000472845022101111026481605369444360061700004278450221011115709994054884443600007000062584502210111155806670708444436000030098473345022101110993440705488444360002600002721450221011115888850)))
 (.node 2 (.node 1 (.leaf 7794444360061300005369450221011110440987079104443600836000083014502210111175358540512544436001000000494343023100111018665706190444360000400004408450220511117393281061904443600027000046084502205011099479010512544436008620245533845022050111763112705125444360000000005865450220501117568573000004443600000000027865501805011159267660597544436000000000566852519050111023893704457444360092037448370525190501115878557021004443600967000028675251901011110840870000044436009690000428050020100111756231602445444360097900003993525190111115894245000005303600682000033835251901011107822551059244536008280000866545022101111059793610592446360083200008872450221201110789533)
 (.leaf 8588444360082404148993450221201110682331084394443601108000081106501405011103177780398144436006890000658555018050111674424700000444360068900005717625150501116205017000004443600689000057856251505011164533180000044436006890000601362515050111601678603828444360068200007680600160501116527783054924443600803000049464102405011159133320586644436008250000523143023050111569886207465444360066400007417450220501115849073071064443600689000062694752107011157882440781344436006890000617345022050111591320807839444360081922906874525191201116444666086254443600837271671714102412011160499951059238936008242339854843023120111774216610592077360061720398548430231201110315877))
 (.node 1 (.leaf 10592433360082416348152430231401116034003105924073600779216284635002014011102764631059244436009394018880145022120111755618810592069360077119598438450221201115792949105920693600824055049044502214011177713461059232836007040986732537026140111045273400000444360070407157781500201401110291183105920003600704295559304502212011104686810875644436007042760601045022120111589072310592000360070437977358450221201117547628105920003600704369872974502212011174471941059200036007772862699745022120111091134810592000360078218888781450221001109992975094784443600639000086504102410111105399191011244436007140000895652519101111771286510112444360064300008977525191011116260372)
 (.leaf 10112444360074200009017700121011116023396101124443600771000090377001210111158301651019944436007710000903770012101111601161409867444360084800008940575171011115889457099074443600867000087985751710111104153960990744436007710000889552519101111043523810106444360074200008801450221011116209784095584443600777000085734502210111176916750944044436004420000876443023101111080948209362444360076600007550450221011116146291091484443600832023372735002010111175561540914844436008280000609543023101111598646209148444360081900005646350271011117628092091484443600836000054963502710111101503490805944436008360000508339025101111749494608059444360083600005281370261011115758829))))
 (.node 4 (.node 2 (.node 1 (.leaf 8059444360083600005573350271011117441190080594443600835000057383702610111101140211059201836005400000540845022101111562287308059444360065600005724450221011117339050056114443600835000074384752110111104804070561144436006690000878047521101111048074505611444360061300005477450221011115829173000005803600024000038314502210111108957240000054036000000000032845022101111579651105691444360035700003222450221011110356356056914443600790000049496501410111102885810462344436000080000378845022101111731732204623444360018300000470450221011110023561046234443600002000050384502210111175248370532344436000000000430345022101111781646705087444360000000004912450221011110143353)
 (.leaf 5087444360040000004883450221011115607003079104443600837000088534502210111103662230791044436008350000876750020101111053963705125444360000000004491450221411110187982061904443600000000042874502205111172887900619044436008490550829539025120111720870506190444360084900008004390251201117522883051254443600613000081044302305011158951860512544436000040715464845022050111037104902430444360097202323993525190101110714239105924443600835023287634502210111107836821059244436008350000866545022101111590449810592626360077105478916450221201111215973084394443600916000078915501812011108164560843944436006890000650752519140111768912903805444360090100006395500200501116384360))
 (.node 1 (.leaf 3981444360068900005466625150501110332987051254443600689000069286251505011111209570094144436006890000559367513050111595207910592444360068900005431675130501111024361052184443600505000043656501405011159374620574444436006980000595845022050111080219205995444360068900005276475210501110569935075444443600689000057884502207011158898310786044436006890000607145022070111542647208376444360084913176029475211401115753087105924443600839023272284102412011159467251059238936008370232859643023120111056369010592077360077914258049410241201117789016105924443600799000082194302312011178811801059240736006980547802045022140111610676710592444360044200004269475210501116093791)
 (.leaf 4176444360065609785305500201401117637603105924443600643152375475002005011174633340872544436007043677824145022120111714893810592000360074235205724450221201115756481084094443600782358671164502212011104534840972944436008323069843845022120111751468610592000360070410918684430231011110154700105924443600617000087963902510111176830431011244436006170000900045022101111778294710033444360077100009028700121011115886289105924443600567000089965251910111160500260990744436005920000886460016101111076001209907444360057600008909600161011110559049101064443600592000088374302310111163481860955844436006640000878145022101111088005909440444360051700008896430231011110893847)))
 (.node 2 (.node 1 (.leaf 9840444360051700007574450221011110859929098404443600592121973054102410111158505200914844436007040000568835027101111098139209148444360080700006929330281011115887110080594443600689000057433902510111106380860805944436007420000583339025101111759082008059444360070900006207450221011115178416056114443600423054786244502210111174027440561144436006210000874747521101111568730000000580360028307074628450221011110253773000005803600016000030424502210111159394170569144436000000000119045022101111023290805691444360068900008732625151611110599542056914443600033000035274502210111100679720462344436000550000040145022101111605476205800444360000200003962450221001110120496)
 (.leaf 5488444360083500006495450221011110196853054884443600010000050204502210111100576690791044436008350000540245022101111579029707910444360083500006071450221011110864366051254443600072000047674502212111177594840619044436000550000384645022051111583069206190444360000000964662450221201110130977051254443600849070783553902512011174616860512544436000000000498445022050111772357205125444360084200008725390251201117586454051254443600000000059015002005011104412070545844436000000000478050020050111760954706860444360000000004597475210501115959388046524443600934000087435002005011163229390487044436009183810870852519050111572371004011444360093841458566525190501116237970))
 (.node 1 (.leaf 10592444360096105433680500200101117584118000004443600836023159304502210111107342451059244436008320543593045022100111775236604926444360098208363310500200101110395542105924443600777000065724752110011107050461059232036008450000838345022100111583798910592320360082400008665450221001110750171105923203600832000086654502210111100124981059217236008350000866545022100111054588310592000360077100958884475211201111050976105922623600856009588834302312011113758821059226236008480095627143023120111114059404975444360071410826300525190501111372143039814443601084120779496001605011167312860398144436007090701653352519140111434608103981444360068900006610450220501109397710)
 (.leaf 3981444360068900005229625150501111136445057974443600689000057856251505011166118620569744436006890000647170012050111076615210592444360068900005320625150501110867999064464443600689000052296251505011164184200593844436006890000687452519050111623883106450444360065600007297450220501116067060105924443600517070171254102405011126277851059244436004860000351950020100111043360410592419360042300001954525191001110421815105923673600839000025045251905011103635521059206936008360000775339025050111080112210592180360069816978241450221201111011250105924443600698040672104302314011106254861059244436006270000500257517050111769648710592444360071914158080430231201116093366)))))
 (.node 8 (.node 4 (.node 2 (.node 1 (.leaf 444360079323198020450221201110537212105921823600839335262984502212011110590410962744436007793352614345022120111767447308309444360084537405724450221201116098964105924443600617000086853702610111178889061029744436006130000902757517101111805847608942444360064300009003525191011118309088105924443600704000087253902510111161461360990744436005670000900355018101111113017709907444360054900008927550181011118336714104554443600592000086133702610111158748320984644436006170000886557517101111586935609846444360059200008974600161011116007262094404443600605000089775251910111180439060914844436008280000585841024101111114820709148444360063900006010450221011115753019)
 (.leaf 8059444360051700006010450221011117705836080594443600307000073584502210111173209490805944436003660000729745022101111750213305611444360001300005533450221011115413438000005803600019054329784502210111108054100569144436000000000120745022101111022233705691444360064300004693450221011110228768056914443600782000044914502210111174223780569144436000000000377045022101111007436005800444360001500003832450221011115586557054884443600835000064954502210111102055310532344436007820000668945022101111030015207910444360082400005930450221011110733021079104443600825000088364502210111109052930791044436008070000889750020101111583394107910444360081900008847550181011117574917))
 (.node 1 (.leaf 7910444360006900004707450221211110516380061904443600803023151313702612111105143880619044436007790231864639025121111090238105125444360084600008408390251201117729321054584443600000000024395002005011105030930587944436009342679887245022050111616065505874444360083902297934450220501111557830105924443600878199744214752110111106286920207344436009820000389350020010111098500401691444360080300005459475211001110654838105924443600704000057275251910011162193391059200036008350960878145022100111109739410592000360077702298973625151201110560866105922623600846000089774752112011106249200398144436007931595632750020050111727119703981444360077700006358525190501114893838)
 (.leaf 3981444360080300006089475210501114482195105924443600689000053896251505011162797741059244436007192640740460016050111629858104242444360069800007298625150501116141767051254443600689000053896251505011162173850496544436006890000592070012050111607114010592444360070900005618700120501118037595105924443600832000049445002005011179802121059244436006890000522962515050111118021306216444360068900005690500200501115784006047164443600689000071055251905011178445800355444436006890832729252519050111072643603554444360068900005338450220501111195235064504443600682000071164502205011108870110732544436006860000779252519050111588908410592236360069817686776450221401116810934)))
 (.node 2 (.node 1 (.leaf 10592236360069810744886475210501118504556051254443600025040321355251910011156687851059228236006231301200860016100111564730610592282360059200001793600161001117595081105924443600828000022415002005011106477641059200036006270094829539025120111056291910592444360071933467639475211201115985400061744443600714230774804302314011103944511059244436007791301761345022120111571034708524444360077933857235450221211114498426090154443600779307762074502212111154063860853544436007790960593045022121111565196509729444360080725108781450221201110553058097294443600790168988364502210111157470881059244436006170000887641024101111801915110455444360059200008404350271011110641466)
 (.leaf 9846444360063400008779550181011111939706101914443600766000086193902510111158986281040644436006230000856739025101111053566509148444360061300008940575171011111072193091484443600486000073224102410111109533650914844436005670000605443023101111046707608059444360043100006075430231011117703973080594443600349000062704502210111152347310816544436009210000889945022101111043606308250444360084908328585390251011115551192082504443600467069685284502210111157549120825044436004130403806645022101111726713708877444360006900006167450221011117105775072244443600198000084884502210111109413820722444436000000000227045022101111580542804489444360010400003058450221011110497299))
 (.node 1 (.leaf 7993444360070900004959450221011115734456072074443600803000042624502210111108233180580044436000070000217745022101111036127507498444360082800005584450221011116326540075244443600803000057314502210111158568960711544436008350000536945022101111055312707811444360083500005402450221011115731916078154443600832000057244502210111101572700791044436008350000578845022101111071703107910444360083500006399450221011116159358079104443600836000059304502210111158838300770144436008350000578845022101111579536007910444360083500005408450221011115857190061904443600033000042074502212111103946870619044436007770000859137026100111142710405125444360002705395173450220501110723177)
 (.leaf 5125444360000000003924500200501110602713051834443600986276383834502205011158123550456744436007770000295847521010111113916402073444360098200002638500200101110604021000004443600934053736585002010011158793560472244436007790228616850020101111586018610592000360081903988488450221001110841699105920003600835000088014502210011115810641059262636008250000885345022120111116163210592262360082500006450600161401111640334105924443600766022877155002014011112342400531344436006890000644665014050111170220606190444360068902287594550180501116756823039814443601053000078836501405011173638650579744436007792241701557517050111208993304965444360077100005550625150501118386597))))
 (.node 4 (.node 2 (.node 1 (.leaf 10592444360083700004884650140501115948547064464443600689000068134502205011180494660512544436006890000691860016050111582383906848444360063400007297450220501118092745100474443600782039885973902512011107431721059200036008560000527647521140111790386910592444360085314925276475211201115773029105924443600782039884624302314011162978221059244436002320398307145022100111046010406856444360082412916776450220501115746505105922483600689139562285251905011110068941059200036007990949796741024120111597747410592180360065603984744450220401118094573061744443600704022873694102414011109079671059244436008240537459747521140111594435610592444360065608247408475211401110530264)
 (.leaf 8533444360083918358098450221201117236691098294443600779320589574502212111159191341013644436007793494895745022121111524511409881444360084829748818450221201110553584097294443600790118388184502210011111068001059244436006890398861445022101111110328609846444360057600008800475211011116045045098464443600505000063644502210111152885790984644436005170000661045022101111572665310406444360046700008783430231011115957778091484443600400000074214302310111109709180805944436003660000605443023101111754373908059444360081900009018675131011110765813080594443600807000090126751310111158309040805944436008320000900665014101111611353808877444360018300006641450221611110688038))
 (.node 1 (.leaf 8877444360042300008708525191011111108843071384443600623000078504502216111102779850713844436004420000806445022101111010901107207444360048600006932450221011117341651067024443600689053745704502210111156582380946244436000100000659845022101111071022608417444360000000006846450221011115520096081584443600026000067674502210111160550860802544436007710000700945022101111602268207637444360083500006957450221011116063032073724443600835000069094502210111159374160780544436008070000563145022101111802326407811444360080700005788450221011110870928079104443600825000058644502210111107408820791044436008350000578845022101111593363706190444360002700004577450221001110238453)
 (.leaf 6190444360083903988625370261011110965459061904443600782022886974102410111112835300512544436002470824851143023120111587683605125444360028300008098450220501117688422067264443600000000039524502205011156646750498344436009341975614445022050111622515410592444360082812855429475211211110783239047224443600779000042585002001111105403821059200036007990000866545022100111106706210592000360084202268931450221201118556870105920003600835009289435002012011112809771059226236007990226893047521120111613920610592444360068606806270450221201111228560105924443600664081865075251914011182004290531344436006640394645550020140111188940308170444360068600006326525190401118453613)))
 (.node 2 (.node 1 (.leaf 9604444360068900006555650140501116111089105924443600782106178886001605011182494491059244436008390000670262515050111587358710592444360084208186804650140501111070664105924443600689000058636251505011113556730496544436006890000514062515050111118789106446444360078221097741475211201116304704028404443600689000071576001605011159718970606244436006980000657941024050111613534710012444360079921658123370261201111287349105920003600848204752514502214011110175111059223836007140533412041024050111797463500000444360028300001630550181001117685049000004443600777296179383902505011177085941059244436007713531743239025050111803722610592444360074214815251450220501118025162)
 (.leaf 10592444360079000005824450220501115838637086834443600824148184384502212011178752860836244436008242334887245022120111119358009604444360077100007480430230501118463576105921153600771289290095751712011113540491059211536007142961846243023120111103431900000444360079332918317450221211115776198101974443600742138588364502212111157962381049944436008463239887245022120111116373609908444360083636208801450221201117640371097294443600828347988014502212011160688310972944436007143565880145022120111598842509773444360062300008967450221011111250552084154443600742022663514102410111148145781059244436008070000557429030161111546875010592444360079903948699370261011117727519))
 (.node 1 (.leaf 10592444360068900008640370261011111650231098464443600558000064204302310111175935460423944436005580000852835027161111111198009148444360044200008764430231011111459961091484443600334000073224102410111113472410914844436002470000749545022101111797470708059444360034900005919410241011110411515080594443600835093788374302310111114152540805944436006172778842247521100111118359708165444360030727375741450221001115937950082504443600069000081744502210111171606010645544436000170000681345022101111575355508877444360054900008763450221611111113012088774443600247000072974502216111111881750842844436005170000817445022161111105892608428444360034100007979450221611110611107)
 (.leaf 7138444360033400004142450221611115115015076694443600192000074584502216111147316760720744436005400000849752519101111055730507861444360068900004959450221011115723697083124443600592000055944502210111107956000881344436008030000871045022101111120396608813444360066400008781450221011116158478088134443600771000086144502210111158154990869544436007140000852845022101111580631308086444360083500006010450221011116126031078404443600018000051734502210111108643060619044436000690000474445022101111029933106190444360076600005319430231011110624668061904443600849053387253902510111114596790512544436001980533808043023120111767619705125444360000000005884475210501110900029))))))
 (.node 16 (.node 8 (.node 4 (.node 2 (.node 1 (.leaf 3554444360083202254577450220111115832766105920003600782022583174502210111156571431059200036008070000871045022100111767788010592000360082800008665450221001111204241105920003600842009189674502212011183342071059228936007711169891645022120111178736710592444360068903908869500201201112049165081704443600682022572354502214011159387491059244436006890811678762515050111804552310592444360068909325640625150501111565186049654443600689022553896251505011113866731059227536006890000524955018040111109203906067444360068908117461500200501117936424067444443600689000058644502205011162986410689844436006640000713447521050111575687206547444360068900007075475210501111368630)
 (.leaf 9305444360059206698192410241201117915413035544443600858009149445002014011112965181059244436008560000471552519140111623573610592444360085313774749575170501116155097105921153600848247586333902512011115432110000044436007822156824145022120111136891609564444360070403908781450221011116029966095444443600837203686354302312111158548531059244436008070000835629030161111611508310592444360071900008695390251011111402764098464443600714000061143702616111112813840984644436003410000866841024161111105217804239444360044200008699370261011111398630080594443600273009162694752110111111752820805944436006340000903065014101111100248308059444360054903906542450221001118174831))
 (.node 1 (.leaf 8877444360071900008934700121611111914547084284443600164000069974502216111105810110757944436001760000513345022161111087035906715444360014800004648450221011115528586081644443600400000047594502216111154817280786144436005920000824145022161111073705109865444360062700008528450221611115752906088314443600617000086784752116111162165230900344436004500000852845022101111108263408715444360023200007417450221011116357539091984443600442000072354502210111117149270899144436008030000871045022101111125635808018444360071400005477450221011110916789078404443600782000086364102410111159057530784044436004670000869843023101111772699806190444360006400004744450221011110846416)
 (.leaf 6190444360077900008461350271011111806549051254443600486000050544302304011110826470512544436000000669616745022050111581693605125444360000000004245475210501117703861065334443600000052936704752105011150111190742544436000000000540845022040111529433405125444360063422668174450221201111716529055254443600835000042574502210111107181770355444436008351266761345022100111092528200000444360098200002427500201001115640950047224443600839022468415251910111157389701059244436006390000463052519100111146495608792444360064300003941525191001117465752087924443600639065642694752110111177703521059200036005671367786547521100111575783710592000360083600008295390251001110993124)))
 (.node 2 (.node 1 (.leaf 10592000360083505268957450221201111581807105920003600782080688534502212011180615801059244436008321266779545022120111893094907104444360068614626119430231401116105937105924443600689000066125501814011112959761059244436006890000750462515050111149610910592444360068620906321600161401111799106105924443600689000058636251505011160992470960444436006890386620660016050111575476104905444360068906565988600160501111214534054084443600689022461075751705011165473510961244436006052317902467513050111585991710592341360085800004442500201401111212407105922383600704000041204102405011157131510000044436008030656862041024120111587461910592444360079920258666390251201117855415)
 (.leaf 10293444360079916488796390251201111309173096044443600634065675695251914011181238921059244436007090526791443023120111807040710592444360071410468614450221201117786541105920003600771306087634502212011112825490893644436007790000900645022051111650519810592063360082534778458390251201111169407097734443600799275580204502212011155015560977344436007792147852845022120111108752010592444360052800008968500201611116475877105924443600714000085463702610111158680811059244436007140000859137026101111636678910592444360071900008625370261011111328841105924443600714000086703702610111108143260984644436008790000837429030101111130297810592000360036600008584350271011111587543))
 (.node 1 (.leaf 9148444360066900008884475211011116516113091484443600293000082883102910111113877400805944436006270386896557517101111126191908059444360070900009005675131011118084311105922643600467009083705251910111177008341059226436001001885438941024100111770228406455444360001000002252450221001117560644088774443600232000089444502210111161220001035944436006860000890867513161111583350710101444360040000008656525191611115518574095874443600232000070574502216111111528740980744436002210000843845022161111524291109225444360017600006542450221611115081190097724443600057000083834502216111148549080940844436002320000540845022161111814889208087444360000900005338450221611110639753)
 (.leaf 8848444360042300005084450221611117396243090584443600170000049964502216111106892950946244436005760000867155018161111167705009462444360030700008614450221611111012677104904443600366000086144502216111114770741034144436002830000861445022161111595916310239444360025700008528450221611115834829099454443600423000085284502216111162544500967444436004770000853947521161111598103009201444360044200006143450221011111550697080184443600835000059304502210111113493700801844436008370000857345022101111103533407840444360083200007174450221011117827932105922713600064000048274502210111157006810619044436007820090557341024040111073127405125444360024700004323430230501111279803))))
 (.node 4 (.node 2 (.node 1 (.leaf 5125444360018600004737430231201111569385051254443600567009052514502214011108165830684744436000000000395245022040111510473904653444360093400007135450220501115682538051254443600897000027465251901011111418860619044436008320000466245022101111130608710592444360096900003154500200101111113611000004443600709000031394502210111176350291059233836007040000537750020100111612641210592300360056700004123475211001117664891105920003600442008988364502210011107617361059200036007931638790137026100111151212010592000360083700008163330281001111169234105924063600682000069394502214011159820801059244436006890000742462515140111137139510592444360071914527228410241201111726244)
 (.leaf 6446444360068900005697600160401116585263056924443600689103870336001605011164445700514744436006890521731165014050111534275006926444360068906517516550180501115687225066654443600689022374335501805011160505221059234136008450521489143023120111187553810592341360004800006966410241401118548978105922383600682022343234302305011178076860000044436008070380439143023050111809555608232444360057600007681410241001115987538096044443600349000056534102414011185945490960444436003570000382147521050111627933010592115360066400007885500201401115883172105924443600709219487634502212011180424610740444436000270223696645022040111577152110592063360024735074827450220401115827676))
 (.node 1 (.leaf 9773444360077934697934450221201111466343104044443600779225689444502210111121389041059244436005490000860741024161111134497610592444360071400008640370261011118192603098464443600714000086533702616111107435531059262636004232076861337026101111240540209148444360077100008561700121011115888263091484443600634000089865751710111177427910914844436003341038856841024101111111340808059444360060517927934450221011115299975064554443600009000039294502210111151625250645544436000080796656645022101111527736408877444360002000008460450221011115498277088774443600540092086905751710111108033810958744436005580000871757517161111587223009587444360040000008802525191611117972129)
 (.leaf 9256444360023200008241450221611115815762094624443600341000086654502216111160963311022644436004420000857345022161111584203710074444360046700008448475211611111421740101864443600442000057244502216111112304250956244436005580000879857517161111580515108914444360044200005930450221011116306655082594443600835000086654502210111111266901059227136000060000595845022101111574363610592271360019200006058450221011117595204051254443600837363986144502212011158242440439744436001482194498445022050111777538904397444360000003805221450220501111074679072224443600000008945774502204011155275450681744436004231150498445022080111620834706757444360002106516167450220501115423916)))
 (.node 2 (.node 1 (.leaf 8661444360000005218438450220501114803765051254443600709022252764752101011178341060619044436006690222535857517011111600098606653444360083202225251450221011118215443105924443600835000046624502210111113589861059233836004860222629845022101111164234610592338360083500006797475211001116140361105920003600442000086144502210111110254951059219336008370648768745022120111814788510592289360083710298916450221201116226484105924063600799162571744502212011119806611059244436006890914762157517140111138668110592444360068912528865575171401118623758105924443600888286379726251514011161688121059244436006431252578835027120111123138610592444360063441667717475211401110586867)
 (.leaf 10592444360068902225933625150401111737132041484443600686200065925002014011160501680568944436006892863614052519050111663915607280444360068900007656525190501115482242058984443600714000048274502205011158112830824844436008280000846243023120111122811010592238360017600886677390250801111330163060364443600413229748804102405011157275820691044436008463311773145022120111124007108565444360062307907901370261201115472036086664443600517008880163902510011181750720733044436003660000428050020140111601564309914444360060511435328575171401111618234095454443600824114387814502212111157424700665544436000280000556545022040111662032510592063360002833293627450221401115327000))
 (.node 1 (.leaf 6939444360064334897458450221201111251769105924443600307037687834302307111165566891058844436004860000845839025071111625963210592444360058500008626475210711112142332105924443600714000086403702610111160368681059244436007140000861337026161111170269509846444360062700008994575170711118453311098464443600669000090146251507111178622210984644436007710000898970012101111600951909148444360077100008989700121011117680099091484443600226051854774502210111111567060805944436006560000568943023101111117915208059444360062700006113500201001110830954080594443600015000031794502210111111186280887744436000080000190045022101111742467708877444360000900005764450221011115382445)
 (.leaf 8877444360000302227838450221011115259388088774443600000286349044502210111156747160742644436001440088586245022101111125498609256444360017600008241450221611111306357092564443600232000054774502216111114903860941644436002320000593045022161111118494309602444360023200008438450221611110917155096024443600104000081384502216111107130480912144436001760000793945022161111073148810305444360033400008488450221611115229855104434443600423000086144502216111183154381032344436004860000867155018161111595315509552444360061300008637575171611111508460094124443600442000087634502210111120887100917944436004420000878145022101111224679708018444360083500006915450221011115923243)))))
 (.node 8 (.node 4 (.node 2 (.node 1 (.leaf 10592520360083500008978500201011112272403105922713600828037689285251912111160956540619044436008443863853839025120111592657306190444360079905185723410241201115967748067134443600134000042574502205011160330720675444436000210000440845022050111831099804397444360000000003952450220501115578703069484443600000051841094502204011155192790000048936004002654498445022140111131275606244444360054027948098450220101116181206105924443600807000044214752101011115010690784144436008030000586445022101111577785806653444360080300006010450221011111838216105921233600627000060584502210011116229321059233836006050000540845022101111593472106457444360079300005420475211011111337790)
 (.leaf 10592000360051700008383450221011115915722105920003600442000085284502210111115023081059200036008320221871243023100111762138310592000360082500008865575171001115746805105920003600836022184583902510011179510521059216836008350221881845022120111786796510592168360083716968849525191201115669208105922193600837143576024502212011158602571059221936006822390763045022140111654564710592444360068919877200370261201118568122105924443600634344177375501814011180651741059244436006891334758862515040111202491209604444360077128246927525190401116325746051264443600689184866876001605011160629510525344436006892683759455018050111616374406433444360071400005078450220501115880899))
 (.node 1 (.leaf 6640444360002600003544450220501115758374052164443600467000035444502205011156613510824844436008280000738643023140111802452510592341360082500007816430231201111308242105923413600782000082414502212011114546110791244436006270909654245022050111156502210592444360096300008184250321601116068839075854443600824051481234102412011154149650426344436008450909773145022120111603622008318444360061703707608370261201115730469078914443600517000063933902510011150322520960444436004500000477643023140111604429709604444360040000003836500201401117793349099144443600605022135495751714011160360270991444436007660000653547521140111150682010592444360068929347934450221201115943477)
 (.leaf 10592444360074223317838450221201116133670082114443600704211879344502212011114623320638944436002571133793445022050111599386709846444360086213348628350271011116179440098464443600803064485293302810111159265120984644436006561133896752519071111609918609846444360077100009004700120711118424784098464443600771000089347001207111179020710984644436007710000895970012101111597645209846444360077100008959700121011116260483048404443600384008769394502210111180965600914844436008350000858539025101111116406908059444360027306444636410241001115412345080594443600010000026104502210111109117630830244436000050000586545022161111756882208302444360001800003304450221611115485644)))
 (.node 2 (.node 1 (.leaf 9256444360000600005397450221611117835574094954443600293000083174502216111176305540910444436000180000556445022161111517995309346444360023200005408450221611115322209099894443600113000057244502216111158863731044344436003340000876345022161111189918610186444360036600005930450221611116019813095494443600477000086264752110111118063690870844436008350087876252519101111638052708282444360083500008923625151011111855468079424443600704000088695002010111160762281059227136000000000819147521101111137124510592271360079300878646390251211111795472105922713600793078255304302312011159563410512544436004670782514543023120111627808405978444360083739006813450220401115571601)
 (.leaf 489360000003704109450220501118063728055894443600846064477864102405011158747581059214336007090000591460016010111638267006907444360084200005648450221011115875219065104443600689000053775002010111159931051059233836008350510666947521100111793847500000480360076600008368475211011117760778064574443600558000083834502210111158384051059220536008370774887857517120111162131910592219360083212367660450221201116308024105924063600782123674174502212011119684751059230136006823943771747521140111206769810592444360068226367358450221401115714749096044443600807142665424502214011119289780652144436007140000474445022050111594552610592379360071400006167450221401116246667))
 (.node 1 (.leaf 10592379360002600004080450220501118387768105924443600828000073924502212011121923111059244436008280000677645022050111809958607284444360054011267567410240501111521965085254443600824064179674102412011154375040678544436007040641703639025120111588181907158444360061702197450525191401116000723099144443600669000037065501804011179794791059244436006823568462339025120111852770708267444360063919147386430230411118096757071874443600704021951454302304111158542720758344436001920219843845022140111554661110592444360002705102096450221001117798012069394443600026000018984502210011153082140693944436000260641225945022041111555845806939444360002600004109450221011111317405)
 (.leaf 8514444360076621066391550181011116189983105924443600709000056493102907111163228351059244436007190000849135027071111596749910592444360071400008523370261611118144088098464443600704000089226501416111157175130984644436006640000898560016161111600292009846444360070900009005675131611118064948098464443600771000087637001210111165212850984644436007710000901170012101111597557110592000360019813256404430231001111369150086204443600116380967674502210111155009680862044436000191761477345022101111102823709148444360000922247571450221001117554598080594443600549112632023102910111109476990805944436000030000164745022101111089078008064444360000000004838450221011111352872))))
 (.node 4 (.node 2 (.node 1 (.leaf 8064444360000000002353450221011111253128080644443600000000027544502210111158710970830244436000000000280945022101111147143508302444360055800008266575171611111520697097794443600669000085884752116111115253640977944436006340000540845022161111169444009524444360047706418408390251611111330159092564443600144000070574502216111179216720965244436001920000699745022161111146983010291444360023200006173450221611115520336096204443600232000057884502216111112530251027244436003070000866545022161111552232609499444360023200008573450221011115418729087494443600413000086654502210111118963500954944436004420000876345022101111600506508364444360083500008694500201011116294917)
 (.leaf 8220444360083500008641500201011116733180082954443600835000088665501810111162478220932744436008360000890055018101111208161210592271360083900868174450221011111801036105922713600837000088004752110111117531860899644436008280641877162515101111152878408996444360078202195381430231201117951440049454443600134064159304502212011114395650494544436000100219482745022050111192802806713444360010410144577450221201111699241061064443600592036456624502204011156381340725244436000000219586545022040111586030907114444360094903648710450221401116212058056724443600148000029444502205011119431891059241836006821970525145022010111806681507975444360080700005381430231011115832706))
 (.node 1 (.leaf 10592054360083200005788450221011112369978105920003600605000083834502210111115524661059200036005490000848845022100111146656110592000360083500005173450221001111835564105920003600836000086654502210111118169381059200036006170000887570012100111218652710592000360063400008959700121001118257962105924443600623035790177001210011120530161059221936008282213752345022120111209438710592219360080719707297450221201112049824105924443600777413176024502214011188551251059244436006823538766045022140111236077910592444360084819706058450220401117919904105924443600848182761674502204011158794471059244436008582213605845022140111135530210592444360085814175662450220401111563344)
 (.leaf 6411444360068939046332450220501117060825096044443600605000077314502208011114254591059236036008350000859643023121111639630410592360360082800008357430231211118433675105920473600828000074804302312111156955590681444436008030000434545022080111783913406573444360065600007152475210501111711883061164443600709000086844302305111159959080768044436008880085821943023120111552012507097444360068914177201410241201115349504076664443600634000078854102412111157621260715844436006820895781643023140111626672706764444360063908954715525191201115770903056974443600682000063614302314011179340390817044436006642776497043023120111191922107116444360065600004850390250401116310726)))
 (.node 2 (.node 1 (.leaf 9100444360054910085695330281211115697803105924443600714000060923702610111163824301059244436007140000854637026071111620575610592444360071400008591370260711116074216105924443600714000085463702616111121799781059244436003490000854133028071111187566210592000360077100009017700120711116198984105920003600104383379974302310011116142761059243536000080085373745022100111110394009148444360002700003263450221001111177739080644443600025000020724502210011157185340934444436000180000616745022161111146858308302444360006900005251450221611115763677083024443600307000055225002016111177288750990244436007140000699745022161111201759409902444360040000007174450221611111495555)
 (.leaf 10318444360033400008853450221611115966052103274443600232000060104502216111114527741021544436002320000848845022161111163338010272444360025700008614450221611111499931104434443600349000085734502216111114919280863544436008240000843845022101111826716108635444360083500005788450221011116301849078014443600836000054294752110111160278991059227136000270000412347521101111148707508171444360011600005338450221211115735155089964443600793000060544302312111179358940899644436002070000482745022120111176651604945444360005500004737430230501116000349049454443600477076445594102405011164529330671344436000000000392745022050111187859807630444360083500006010450221011116214381))
 (.node 1 (.leaf 6528444360083500005000390251011115740551068254443600682000047805002010111155379170839044436006430000490445022101111784207110592054360083500006542450221011111388315105923383600803000061674502210111157277760670844436006890000697743023101111514602610592072360052800008665450221011117977693105920723600442000084884502210111116569140963244436004420000880145022101111586971210592000360061700008608700121001112799674105921683600835063384384502212011158829801059219336008360753752345022120111162871610592219360082815007495450221201111751137105924443600682357877424502214011118720171059244436008580217616745022040111839067105272444360083520916641450220401111993789)
 (.leaf 4580444360069832095063650140401115723919056774443600714000045774502205011158201041059236036008070000773145022011111170578502626444360076600008049410241211111444465068144443600828000077104302312111116043260795244436008440217816239025121111575207808002444360077900007542390251211115490378071584443600669000041873902512011157370170676444436007792201297250020140111165846906764444360069800004577450221211116074246082674443600698110345453902512111118197330707844436006860000809039025041111654751508985444360077100008885450221201116003094105923523600486276671243302812011116959221059244436007140000855937026161111829195910592000360077100008969700121611112415103)))))))
 (.node 32 (.node 16 (.node 8 (.node 4 (.node 2 (.node 1 (.leaf 10238444360046703428584550180711111909199102454443600771000089977001207111156096481059200036006010000895652519071111635677900000444360030700002969410241001111170990105924353600226000028703902510011157500940281544436000200633367745022100111557349902815444360002200002839450221011117674897000006263600017000016884502210111155466360806444436000100000154445022101111137123408064444360001300007613450221011111651218080644443600232000084414102416111114860280806444436000600000809845022161111149030209902444360006900005564450221611111403824096524443600000000060104502216111117173831005844436000330000586445022161111148910808455444360057600008745410241611111167185)
 (.leaf 10592444360077900008994575171611115929186100224443600601000074046001616111163765470984144436002320000735845022161111576550908881444360047700005724450221011118033636078474443600836021757884502210111158157251059253436006860000564845022101111574636910592271360079917445381430231211115797382083734443600069122347444502205011121321740684444436000211405440845022050111625282110592170360082802164816430231011112368924105920003600528000053384502210111114768440670844436003570000627143023101111179157006708444360082536214516450221001111931924067084443600825000073924502210011155794921059207236006050000848845022101111802105210592023360054900835102475211001115870530))
 (.node 1 (.leaf 10592000360063913047438475211001116226363105920883600835021688534502210011117101151059240436008370996857345022120111538902410592193360082406297174450221401112167264105924443600669075080146001612011120711371059227736006823925784445022140111212528910592444360079918866641450220401112589044049694443600858099659584502204011123370840537844436007092077638365014040111525963810592360360076600838815500201211116425778105923603600505000088465751712111189633991059244436008280000604943023071111804991206541444360083635978396475210811115365415092694443600845000088374302312011155616430730644436008712345771043023120111193610308637444360086204988317370261211111999684)
 (.leaf 6764444360062706293540550181201112088776060144443600664062939664102405111117043920826744436007421097780133028121111166874706720444360017000005545430230501116631995061274443600450021636564502205011118884270991444436006820340395245022121111144969307300444360048602167731450221401115955814059974443600486000041094502205011160829871059235236001000216410945022100111205313310592352360062103407710430231001112012237066174443600032000022364502210011178038560867744436005051304700035027121111235499410592444360063900008816475211611112419468105924443600698000088854502216111157685751059244436002320000885345022161111290208010592444360023200008967450220711115874092)))
 (.node 2 (.node 1 (.leaf 10592444360000607500000000030711115852970105920003600771000089697001216111124387960484044436006891947868443023101111155697608064444360000000001748450221611111338819080644443600669000087814502216111117610540806444436000150000564845022161111614708108064444360096600007086390251611115956107080644443600916000070904302316111181304600806444436002470000699745022161111804310509975444360017600005788450221611111764570100584443600100000085284502216111122046291005844436004500000711645022161111583755410155444360071400008604600161611116105245102554443600686000086966751316111158206110984144436004670000576760016161111810243709841444360066400008550675131611118006901)
 (.leaf 10285444360019800008614450221611111905868068144443600020000054084502210111119536890874944436004000000547745022101111777995607348444360082800005648450221011111818554073484443600771000056894302310111118808620817144436002730340498445022121111192146908996444360091100008780410241211115981267083734443600024000047444502205011125438420671444436000000000457745022051111600576105205444360059200002835450220101118992886087934443600682021528354502201011119424800715144436007420000505443023101111586280310592000360022106256542450221011111692235067084443600779243369163302810011159355411059200036008350000857345022100111549617110592000360083502158899450221001112154048))
 (.node 1 (.leaf 10592075360083504938872450221201111931638105924043600824074672974502212011156552431059225736007820878735845022140111586108710592348360074230027550450221201116298904105924443600824200677954502212011160751571059244436008071726784547521120111582550910592258360068212987889450221201112372148105924443600682270778714502212011160561381059239036007713924749545022140111595577405094444360085342276143450220401116111693073824443600664033982496001608011157774081059238136008360000532152519090111798945310592381360078215646755475211211115850986105923853600803000079344502212111178059581059218836008280000749645022080111790766710592047360082800007210430230711118385745)
 (.leaf 5736444360090704934764475210801116244335068194443600870218169664502214011153060940809244436007660625826241024121111597848207604444360077900004187390251201118158941080274443600719000086844302312111147992600553844436003490000251645022050111172980605307444360034900002721450220501115117915105923523600639255278384502210011160470901059235236000332707490445022140111575311010332444360062723326583450220711115857737105924443600517000066125501807111180984791059244436004000000894252519161111597931610592444360038400008779550181611118311512105924443600664000088136001616111124831931059244436000060000000000003161111166150310536444360027300008831550181611116019998))))
 (.node 4 (.node 2 (.node 1 (.leaf 10535444360040000008815500200711112141380101604443600431000085394752107111115719900484044436001982433419143023100111177995410592000360056703393407390251001111506508080644443600016000025974502210111117154380806444436007990000903162515161111327910308064444360060100008614450221611117810980080644443600176000085484302316111112090920984144436007710000805070012161111259357606814444360002200004662450221011111692788079514443600273000051734502210111157192850770444436007770000538143023101111580373010592372360020702154662450221011111504147000004443600027000065354752110111121901780000044436000330000426947521121111842778708178444360028300004984450221201116269022)
 (.leaf 8712444360093200006115410241201115766475068444443600000000029444502205011132947921059244436002210000313945022050111591987310592444360000000003304450220501116228540054304443600069000028354502205011158362700522544436009840625516939025100111425696605761444360062300003139450220101118427759105921703600682008142574502201011163043200827744436002210000693945022101111575416807826444360054900007385410241611112393016067084443600825346265424502210011158266731059201936008240000614445022100111166344207896444360078200007496450221011111899722105920723600704000069675002010011120635111059217836006210000671947521100111795072810592075360083500008899450221201112283922))
 (.node 1 (.leaf 10592404360082410857417450221201111805817105921773600824062172974502214011180949561059217736008240621735845022140111583791810592000360074203377523450221401118655571105923483600807155777184502212011121146961059234036008073181771845022120111813167610592444360068238667844450221201116115117105923903600819308171164502214011125631531059244436008371557629845022140111860576510592444360084910856058450220401112618852078244443600682379055644502214011123293770713744436007140487664747521080111213556610592157360047700004744450220801118600657105921573600779000036704752110011159934151059218836008450000813750020121111775979907101444360082800006776450220811112996642)
 (.leaf 5871444360095500004827450221201112914104080924443600832000066704302312011120158850811744436005920213418739025120111836820408285444360027300006543370261211112132648070864443600639000076134502212011157279000681344436007190000650945022101111189768309235444360043103374257450221011118198900092354443600567000033044502210011117723661059238636002210000294445022100111775460010592352360023200004109450221001112141317066304443600048258356484502210011157793191059235236003220740449043023121111219318409308444360061707408174450220711112059543102274443600766087167026251510111160977951035244436005280000862865014161111618049810377444360066400008882500201611118682092)))
 (.node 2 (.node 1 (.leaf 10592444360023200008836450221611111092327105924443600232000090105501816111127828701016044436007140081887245022121111570709710160444360071426628781450221211117793065105920003600779370271984102410111113871631059200036002150000307543023100111569227008515444360017000006641450221611115734284080644443600069000062714302316111121710730806444436007710000903370012161111212952808064444360076600009020625151611111954277097224443600656074085734502216111119850850975344436007710000828470012161111285944108828444360077100008204700121611112076411098214443600366000084826251516111163021091001044436005580000549847521161111806224810148444360076600008526410241611115921576)
 (.leaf 9008444360077100008622550181011116067097068144443600025000080984502210111177950771059224436000260000457745022120111874853107958444360034911935338450221201116014682082174443600069000049044502214011162055350686244436000000000330445022050111931258907911444360000203374904450220501112127577105921703600682097933044502201011123309030756644436002263072466245022101111221694408123444360023200007731450221011115460381084304443600221000067374502210111157319010781044436002210000605845022101111586367810592000360083500008801450221001115372324105920003600793000089425251910011192448621059200036008350212866545022100111181789010592348360080717107795450221201112247403))
 (.node 1 (.leaf 10592340360068241977630450221201118080531105924443600682415676304502214011182321790879244436008582614586545022040111275607307733444360068900008468600160811114907420105923243600828021278384502207111184639730846644436008280000739245022071111220483608121444360089700006917500201211115235366077964443600807000080204502212111155434050690444436002830000552539025120111668755908243444360030713784574350271211111731073066044443600689021251734502208111158616880728844436006210738474445022121111587746510592316360069800007135450221011112158830068134443600689008076134502210111120049670681344436006690000736941024101111209641909235444360047700004577450221011117868797)
 (.leaf 9914444360068200003905390251001112056731032854443600682000037783902510011118304811059238736003840000457745022100111614782010592352360016416364744450221011115782645105923523600592021255644502212111184486271059244436007710000684470012071111534152110377444360077100009047700121611113970806105920003600423000088145251907111160611090000057536000190000320545022100111156189908064444360000600001268450221611111945078080644443600104000072854102416111122412710806444436007710000902870012161111241914908064444360087900008511430231611115407122080644443600766000083834502216111154989250806444436006690000846350020161111561712208064444360060100007953475211611115904792)))))
 (.node 8 (.node 4 (.node 2 (.node 1 (.leaf 8064444360032200007639475211611116006047103264443600528000087104502216111157767761049144436006390000866545022161111275450110592372360006903365221450221011115781582000004443600877000087284102412011121694440888044436003340000699745022121111600947105126444360002108654080450220501118438749069554443600824319456484502212011156937620722144436000211184517345022050111187577207566444360057600005173450221011115871704105926263600232000061674502210111157823200804444436002320000654245022101111794497810592279360061702118020450221011118228825105920003600634000039775002010011160147011059200036008350000881845022101111821504810592000360077107338801450221001118455458)
 (.leaf 10592000360083506138665450221001118003633105920003600799085276304502212011161801481059213836008071456768745022120111807202810592340360068931517602450221401116226747105922493600714226378204502212011183090701059244436008421072768745022140111294667805125444360085831846737450220401118953179051254443600858021158654502204011164594630879244436008580000595845022040111865344907955444360089619189006450220101114305266105921573600819000069175002009011179645511059200036008361179880145022121111211068810592324360083608528801450221211112543112072194443600790097176675002008111159002020594644436008240000488152519081111552141706923444360061700007901370261201115322671))
 (.node 1 (.leaf 6569444360062700004717410240501116007201071284443600704033446624502208111125232771059231636005850000410945022081111595826406813444360068202118325410241011112164518099144443600656000053574102410111158393151059240236005490000314639025100111794349610592352360002612792525410241001111811148105764443600601245088314102412111117871001037744436006390000897557517161111628907610377444360077100009037700121611113602456105924443600771000090237001216111182593331059200036006392450593441024071111250172700000544360000500002493450221001111729602000005753600009000016314502210011118294720318044436000000000221045022160111581768708064444360006400004845450221611112070603)
 (.leaf 8064444360000800003393450221611117751998096164443600273000059146001616111179877341023344436003660000863757517161111812692510592444360071900008729430231611116600701066114443600322000085734502210111123254170891144436008030000883155018101111323634106814444360078200008078625151011117769983105923723600366000080804302310111160388310000044436003840000419143023100111800837100000444360027300794516450221211116135613000004443600839117988834302312111183462700000044436009380000886441024120111498791005126444360005506135440450221201113199846086404443600010000080204502205011154062180633444436009431456603241024050111612738505487444360082404744257450220801119272936)))
 (.node 2 (.node 1 (.leaf 8257444360070400007392450220801118488770105921703600682047442574502208011128955970756644436005280000466245022101111193276207898444360022100006426450221011115745569080834443600617000069394502210111161500371059200036006340078312350020100111793128910592626360050500008833500201011112355624105920003600828020988184502210111125645051059223136008242781741745022100111825013810592257360079318337495450221201112679089087924443600714176349044502204011189136330895044436008752347901347521140111599226608735444360068606098370525190811112177654105921583600247000066885002012111184734431059215836008190966688445022121111259907907233444360016400006222370260811115700261)
 (.leaf 10592089360019800784577450220711112086988078074443600682047477864102410111122928540681344436006340000838841024101111268377908424444360066400008325410241011112399640073954443600450000043873902510111182263471059200036006640000583535027101111204049406422444360079000006143450221011112307315105923523600148127060374302310111123287071059235236001640000343043023101111176412208201444360018614505724450221201115747715105924443600423000089836501416111131589591059200036001482145267343023100111791875900000556360029300003437410241001111861199000004993600000000022424502210011178279810806444436000000000183345022161111178682408064444360000000002240450221611115730813))
 (.node 1 (.leaf 8064444360023200008619390251611116395990080644443600799000088364502216111159469470806444436004230000857345022161111788606808064444360000600004408450221611115761946080644443600000000034894502216111157881910743344436000000000462845022161111186901309764444360050502098585390251611115855494080644443600011000036894502216111177532810845544436000060000408045022100111767515208455444360032200006426450221011111429732101074443600558000086654502216111122818980915044436007900209890762515101111586266306814444360082800005653410241011112232751000004443600192000045774502212011126229820777544436000000078440845022050111245764208257444360090729318957450221211112923165)
 (.leaf 10592273360068200003489450220101118420581058144443600221000045774502210111157554900873344436002210000507845022161111561032808238444360022600005078450220711115749483081864443600221000051734502207111155826530819644436002210000673745022101111536449008160444360022100004662450221011115508398080834443600307020852514502210111159078191059200636008320077365645022101111565951310592000360079300006966450220711112430922105922633600698000034605002010011177579601059200036008350331889945022101111292640810592229360083706047523450221001112127079105924443600807160476604502212011158793861059244436007140077699745022140111342651908908444360066911656173450221401112826859))))
 (.node 4 (.node 2 (.node 1 (.leaf 8592444360087203319007475210501116057125089094443600664000084884502212111123152291059215836008240000482745022080111299374910592119360080300777392450220711112633964105920003600828000073924502207111126702240734644436002262515761345022080111584496110592017360077103318098450221211112403770069574443600221000073924502210011157344440842444436006430000463641024101111252856404397444360045000005639390251011118324757004204443600357000074323902510011158358040042044436001130000342145022100111253552606422444360047704685662450221001118288631071214443600605000052083702610111147899301059244436006130000889945022161111633979609048444360000000007303450220711112008422)
 (.leaf 10377444360069821348941550181011116062849103774443600643000089885251916111186049851059244436007710000902870012161111843161510592444360077100009023700121611116078092000005033600486135369664102412111182466410914344436001830000866545022161111600746310445444360023200008853450221611116177102104454443600232000088184502216111188281950858444436000250000362145022161111197198506915444360000800002925450221611117822325051924443600009000041854502210011154762000845544436000110000316945022101111198904310107444360033409588174450221011112235197101074443600334000089164502216111184686051010744436007140000891645022161111612276910107444360060500008818450221611118774355))
 (.node 1 (.leaf 10244444360044200008885450221011113099767068144443600828000072473702610111119479480681444436008250000440041024101111213227708034444360015708446298450221201116153958075264443600008033145774502205011190486761059244436000000000348945022050111640121306403444360070900775145430230501115589301105922733600682000045774502208011129669020894444436002210000540845022071111234169208358444360022600004904450220711115313519105920663600334000050784502210111181148301059227936005580000739245022071111807347410592178360079900007865475211011115705893105920313600634000031045002010011121882911059262036004770000885057517101111605735410592000360068607238317450221001117878232)
 (.leaf 10592000360047700008641500201011112555612105920003600824095288854502212011127581051059223136005170000729745022140111598761610592319360068220166939450221401120076479105924443600682000069974502204011166807291059244436007192505752345022140111297680910592444360083920167116450221401119173879105924443600825033062984502204011138607571059244436008580600595845022040111646065610592444360085806005221450220401118833164043974443600790084054404502204011132231570960444436008321433522145022040111360176410592119360082800005756430230711112200599086744443600807046266704302307111123735760810544436006341344750037026121111563849007268444360030700004525370260801112903655)))
 (.node 2 (.node 1 (.leaf 6681444360058502076776450221011115916330084894443600664060081924102410111127235310739544436006050000396641024100111259266510592000360042304625809390251201115859842004204443600027000038114502210011126125611059222136003340000261545022100111200948707121444360034100004120410241001115584896086944443600803000057893302812011160364801037744436005760000871243023071111575117610377444360078200008987550180711115869761103774443600807000090076251507111184326821059244436005670000899067513071111645372410592444360028300008986575170711113116382000006263600006000018354502216111121513960000062636000000000209245022161111783450808064444360027300008539475211611119264380)
 (.leaf 8064444360071900009023700121611118528143080644443600771000090177001216111187138360806444436006890000900567513161111900321108064444360082800008849525191611116003324080644443600664000085734502216111160774150552144436000000000276945022161111576033605521444360000000005322450221611117984068071614443600025000046594502216111121945170717544436000240000320645022101111554635505734444360001400004984450221001111922719066114443600009000054354502210011119158211010744436002260000857345022101111805984006611444360081913448462430231011115960572099424443600540020788184502210111128945390681444436008320000835539025101111815143706814444360084434358292430231211118343746))
 (.node 1 (.leaf 444360087011588926430231211112720986000004443600890000087114102412111180818440000044436007790952556445022121111553563010592444360000000003656450220501113222246061454443600656232743234302305011182079820598544436008324085749645022011111588243310592273360068200003139450220801118516334067914443600257059541094502207111158126351059206636008280206677645022071111248831710592279360068603287754475211011112091762105920043600623044973204752110011157170071059200436006270000651650020100111783496810592000360077903288488450221001112152624105921873600643032873584502210011182354561059218736008370718755045022100111582736110592146360082429127495450221001115841330)
 (.leaf 10592317360079931577660450221201115687391105924443600682000066414502204011191360411059244436007190595693945022140111381399310592315360068236025251450221401113832493090544443600682125163044502205011125819520739644436007821152838345022121111534429510592119360082502065145430231211112495246076524443600766000041914302307111160846090578244436006640000294445022051111417911006309444360077100005565450220511115737768075994443600617000067773702612111155190570835744436006170449701937026121111652946507589444360088503288080430231211116015709070404443600567000055654502208011160599710662144436006390000395245022100111598326307921444360018600004516450221001118339004))))))
 (.node 16 (.node 8 (.node 4 (.node 2 (.node 1 (.leaf 8489444360022600007210430230711116092354004204443600366000045253702610011126225270698344436006430000371133028101111243776907208444360082503285828370261201116458468090484443600005000044084502212011126201730904844436001480206720141024071111262289810592444360006000008940575170711116026564000004993600000000013014502216111121387660806444436000000000316445022161111564845908064444360000000001906450221011117832001080644443600015000049674502216111184164980806444436007710000895970012161111633257808064444360000000002155450221611117998267040074443600000000026814502216111123358510500844436000000000679545022161111579851506391444360000000002699450221611112301884)
 (.leaf 6814444360082800007613450221001112200175000004443600116020649844502212011128960220000044436009300000868341024121111589194607266444360070432805421410241201115326014105924443600000071847444502205011131251890645444436001040328348945022050111591690708536444360068200004577450220901118416991074344443600221000040964752107111156756890846944436002210000622150020071111801510608212444360022100005727525190711115600796105920663600835000066414502207111126388881059227936005850000783845022071111567303410592626360079900008241450221011113415058105921463600825083171164502210011128751140960444436005171246699745022140111365944110592444360068200747116450220401116272355))
 (.node 1 (.leaf 10592009360087215822310370261201116001787105924443600682322674954502214011163334191059241436008281146522145022040111350950510592444360077128805958450220401113157177043974443600686059146624502204011136007101059231536006822804693945022040111316003308558444360054000008976450220501118574320098694443600689000072063902516111158323860750444436008360000667739025121111877135806276444360082509353876450221211115946691069004443600656083132504302312111153284960774244436006560714717337026121111602829909052444360034935298462430231211115924078068614443600605000060683902508111165023650631644436005920000408045022080111575513906673444360020700004191430231001115957473)
 (.leaf 471360000800004904450220711118345578069444443600656104577633502712111157773231059200036006430000825237026071111586402210592000360064300008408390251211112647794105920003600709000082743502712111122516570703944436006430327614345022050111514177107567444360062300006611575170501115780986080224443600872124659143502712011157366510725544436007661327588837026121111220814008787444360063900007195330280711112389492103774443600136000072014102407111184726241037744436007770000898970012071111833150410377444360074211468934700120711116320695103774443600486000088066751307111189945261059244436005490000874667513071111616266802445444360000000002172450221011117915382)))
 (.node 2 (.node 1 (.leaf 626360000000000869450221611111921598000004443600000000031984502216111155651600806444436000000000303345022161111209519908064444360021500008174450221611115925146080644443600232000087634502216111155242280806444436000570000496045022161111567062608064444360001400004345450221611115534450080644443600000000036204502216111126121100500844436000000000347545022161111570300806894444360000000004266450221611112230214063724443600069000068134502216111124081440637244436003840000867939025161111830447106372444360038400008428370261611112962751069434443600144000046484502216111151386620461344436001000074408045022100111196111006611444360007200005917450221001115346757)
 (.leaf 10592444360082800006776450221011117655257068144443600828000073924502210011119605090681444436008280000749645022100111237174806814444360077900747125410241001112261226000004443600777000077314502212111122556460000044436004420000455941024121111605303200000444360082405918986450221211115968568000004443600882000087284102412111182206380000044436006641419705745022121111815729600000444360002604475930450221201116192613080074443600682093549464102412011187629440647944436005853272520141024050111569382400000535360085317353656450220501118498537085364443600656318288854502212111131520161059206636002320000843845022071111265141110592279360036600008241450220711115700013))
 (.node 1 (.leaf 10592444360070900008573450220711112571404105920313600601000060115002010011124272701059261236005760204839647521101111264994310592612360071405858853450221011118395765105925133600835020488724502210111161662511059200936007141862231045022120111324240610592444360079925555221450220401118904381105924443600714149665424502214011191703861059244436006821412693945022140111847053310592093360068231486010450221401115760317073734443600634000052514502207111180607350737344436005760000545643023071111591693307533444360062102047210430231211118271400105920003600576000060374302312111186180310988044436005490000850139025121111509192406551444360002800004904450220811116348868)
 (.leaf 6647444360025700005251450220801115535573096254443600627285480494102412111159464921059222136000550000261545022100111304032007121444360022100003466390251011115631801069834443600144044672994302310111178492070725544436005580000383641024050111573608509663444360023200738016390251611115693626105921063600601000079686001610111124496831059210636002320000761345022071111848342910592106360023228547496450220711112469731105921073600069058572145751707111126369960000047036002150000653547521071111820947210592106360000000003076450221001118228405024454443600000000019774502210011154488610000044436000000000119945022161111194452508064444360000000002382450221611115593783))))
 (.node 4 (.node 2 (.node 1 (.leaf 8064444360000000002820450221611115854751036204443600000000036204502216111158519900357644436000000000377145022161111554744905008444360000000003468450221611118183265068944443600000000028584502216011156315990637244436002320000431145022101111330762406611444360002800007270450221011112576529066114443600423007369664502210111155751000661144436001760000748043023101111554091006814444360080700007392450221001118077541056974443600771000056393902512111158696390000044436008280073878145022120111606972200000444360063435636234450221201115985607105923033600486082645774502205011162977701059204336008703034852845022120111279960808249444360094603258636410241201114853081)
 (.leaf 10592000360069804447838450221011118232077085364443600669185488544302312111183364250853644436006050000295847521071111823248010592066360083500007385430230711115949327105920003600232000085284502207111125058361059205536004500821795347521100111309385410592055360046700008354500201011118325198105920003600807007272735002010011124745881059206536008251404809745022100111287214810592317360057608217236450220801116048325105924443600682032469044502204011191269671059200936006821131231045022120111371078810592395360068226246884450221401113432024105924143600617185470574502214011163481151059244436006822584395245022040111385547510592444360068231966939450220801118626897))
 (.node 1 (.leaf 10592314360068238397602450220501118309966085264443600592366589444502214011130038580610344436007422149739245022081111585657509314444360047700008334475210711118131709091894443600682000076073302807111129012261059200036006210000773145022071111833095710592000360034900008763450221611112743462105920003600413000085114302316111157303371059244436002320000861445022161111581039810592444360024700008528450221611115858769069834443600549000041693502710111124425850698344436006430000708035027101111578445608775444360059200007019370261011112467803096634443600400000079383902516111124725660878744436001480000728541024071111533341610377444360071400008284700120711112784321)
 (.leaf 444360014800002898450221501115941674080644443600000000029704502216111158144160806444436000000000170045022161111269698508064444360000000000930450221611112307080080644443600000000017294502216111181414650364044436000000000308645022161111640219403631444360000000003051450221611112886589036314443600000000036754502216111131440770343944436000000000367545022161111675903703168444360000000003724450221601115829342036824443600000000033624502210011127134470637244436000000000196545022161111220867306372444360000000002576450221611112567871063724443600000000016984502210111121764890661144436000160000599245022100111805725010592444360082813157135450221001117864386)))
 (.node 2 (.node 1 (.leaf 10592444360082800007303450221001118057602000004443600064204452514502212011127677440000044436001830202490445022120111605669600000444360013609275788450221201115916229049954443600807044443234302305011157100030537344436006981033448441024050111639551908569444360091142258883430231201115517813084544443600221000053935251907111158974661059200036002320000848845022071111277371410592000360057600008317450220711112451270105920003600567081749844502210111183974671059200036002570000783845022071111581052910592016360066400006939450221011112904508105922263600742007185734502210011128626851059200936007041400231045022120111606705010592009360057607022310450221401112633743)
 (.leaf 10592395360066917116939450221401118566627105924443600682007158654502205011134769571059244436006820071428345022050111915497610592444360068230757635450220801118240331079874443600613057778854102412111172192860752944436007770071586545022071111503064408355444360079302016776450220711115737502080424443600605000068914302312111158618300866444436006230000713545022071111584913910592000360077900006509450220711115858809105926263600576000082835002007111127211610880844436006230000801555018071111589884809314444360028300008463500201611112840434097994443600442000081184752107111129109731059244436005760443883350020071111619896110492444360002802012407450221011113312007))
 (.node 1 (.leaf 6983444360038400004371370261011115561415087754443600742000079783702610111126500740877544436004860000793535027161111592034807928444360062700004350350271611118538876079284443600656000049663702616111184329240878744436006050000853437026161111810996308787444360002800004891430231611118490519088714443600134044344844102407111158269771037744436001440201838345022071111273519510377444360023200007613450220711117959154105920333600000000052514502210111124063041059200036000000000265245022101111253572810592339360002400001978450221011115485300000004443600048000022004502210011157571490000044436000000000201045022100111544791100000444360000000002681450221611118292940)
 (.leaf 4337444360000000004983450221611115619059019414443600000000024234502215111156569850366944436000000000381145022161111587369703705444360000000003187450221611113256363036714443600000000030864502216111130480180356544436000000000300845022161111596384903524444360000000002970450221011115771009037704443600000000040304502210111157771770370444436000000000393845022101111585817706814444360000000003620450221001113135255048264443600357000046094502210011183444380637244436003490000553645022101111534212106611444360002200003867450221001112352346066114443600020000073334502210011123773080661144436000200000352245022100111251547806814444360083900005221450221201115796744)))))
 (.node 8 (.node 4 (.node 2 (.node 1 (.leaf 6814444360027309238488450221211112975760000004443600689177583834502212111132220110000044436008781309871141024120111250673208621444360068200005421410241201115779014105923033600021000033044502205011135678470638344436008243050432343023050111610073407146444360061326524601370260501113084321063144443600024007129444502205011161344260538244436009292467396641024050111591683707543444360077700005456430230711112922371093394443600221000057775251907111155695580844844436002210812539352519071111274872610592626360022100005144525190711115368175105920003600221000046165002007111156632181059200036006640812507845022071111355183410592000360070900007174450221011115848485)
 (.leaf 10592000360045000008528450221011112668207091934443600257000074954502210111161959571059254236008351119885345022101111305288709604444360068216357236450220501116104399105924443600842032123104102412011162118391059239536006560070861445022140111599368907674444360054023788958475211401115365966076184443600766000039524502212111137705200866444436007661119730345022071111589396110592626360060100008443550180711118392783089724443600623000083185501807111158162461059244436004130000822852519071111291475310592444360047700008396475211611112941448105924443600592000083344752116111159513511059244436002320000802045022161111269694810438444360062703218780475210711115805146))
 (.node 1 (.leaf 7925444360082400008020450221211115823334105920003600585183880163902507111159002471059244436004000000845839025161111854179310592444360040000008567390251611113198656105924443600247000087814502216111138046011059222136004000000864150020161111621562410592221360044200008357430230711118704908104924443600028000041094502207111183626510877544436003340000788541024101111551088807693444360060500008421350271611116520445076934443600621000084773502716111188021221037744436001040000721043023071111548943210592160360000000004516450221011112553991105921073600000000045774502210111182188731059233936000000000240745022100111819931310592111360000300002898450221001112491917)
 (.leaf 444360001400001914450221601112592795054644443600000000068844502216111162410540434544436000000000447945022161111612048402880444360000000002920450221611115859079030004443600000000026814502216111158426780378444436000000000372445022161111308492103364444360000000002970450221601113226964033644443600000000038604502210011131017210350644436000000000403045022101111660528606814444360000000003724450221001118600061068144443600601000037244502210111127057120681444436000080000330545022100111815656406611444360086700007116450221011112679450066114443600020000070294502210011154695100661144436000260000628745022100111291681606814444360083902004148410241001112668107)))
 (.node 2 (.node 1 (.leaf 6814444360079302007299430231201115528035000004443600878122487994102412011132294270623844436008240070482745022050111514263205196444360083502003836410240501116482093057414443600714301046013702605011132742030697644436006892086776335027050111604407807536444360071442214577450220711112941373086334443600221000050485251916111158523300905544436002210000532152519161111529838010592000360023200005408450221011118261700105920003600221019950784502210111128273231059247736007820320888545022121111409419010592226360083511137495450221011112840791105922353600793101687814502210011130942091059223536006860069782045022080111609411410592444360066406947663475210501118799759)
 (.leaf 9604444360054929242310450220501115836076105924443600585189823104502214011129038741059242336006823028744745022080111362984110592426360068221767820450220801118173653105924443600682154875234502205011129236020999544436007040000862255018161111333519410592444360034900007905525191611112903021105924443600164000089684752116111131168161048944436003340000886655018071111528296110509444360018300007816430231611113140425104924443600226019936904102410111129812130810844436006390694524139025101111600413908775444360043103207646390251611113363790076934443600567000080163902516111129001090887144436001440000804941024161111326443109809444360000000004408450221011115372708))
 (.node 1 (.leaf 9809444360000000002721450221011115301026105923393600004000033164752110111127091711059233936000190440499047521071111282901204397444360058521765958450221201112891443000004443600000000026214502216111127158670336744436000000000259745022161111537571503232444360000000003527450221611116010527034604443600000000035744502210111132479660681444436000090000362045022100111287236706814444360000000002991450221001115774952011994443600015000037764502210011159867760549644436003570000362439025050111295146205697444360077901996641450221201113504511000004443600877101689765501812011185530480673644436006233513615837026050111620057708281444360065635175251450220711112938969)
 (.leaf 10592000360022100005709525190711115524390105920003600221405657775251907111157459031059200036008350000448441024061111309727009683444360052800006572475210711115642265105926263600824000071744502207111185819390966544436006980068892460016101111572537310592477360071403188977525191011114266102105924773600819091188724502212111161904421059200036008280552752345022100111349158209604444360051705522310450220501113175637105924443600576080423104502205011133198510960444436006821011866545022080111602694909604444360077140587236450220801114688775105923093600682422077304502208011131120320713144436005492359868857517080111823670807674444360071412108986450220801113477948))))
 (.node 4 (.node 2 (.node 1 (.leaf 9074444360066432228543575171011115827790084934443600837101181524302312111157345840761844436007791292654341024121111608568410592074360077700685525390250711116047060092134443600558000085284502216111158541941009444436004670000861152519161111305468709995444360045000008847550181611118261990099954443600467019886046001616111158694171059244436001700000849947521161111834495010592444360010000008885450221611113604690105924443600334000086945002016111135383061059244436004000000897362515161111596101909582444360011611027934450221611115739270105094443600221000084213502716111159660071059200036002260000843845022161111304723010592000079016400006891430231011118162976)
 (.leaf 9317444360045000008016390251611112630011076934443600257000081575251916111191014930878744436006560000780937026161111857354508871444360011600005429475211611118465696101344443600015000074804302307111131045411013444436002320000819241024161111278183209809444360000900005565450220711112605589098094443600000000049044502210111158015110980944436000000000395245022101111589421410592000360000000006144450220711115915308000004443600015138165094502207111191667040535744436000000000435945022161111262023203187444360000000003574450221011112756264034664443600000000037244502216111154734380335444436000000000357445022100111582665803416444360000000003574450221001115830266))
 (.node 1 (.leaf 6814444360029300003574450221011113258736068144443600000000030084502210011158063900681444436000000000221845022100111307422806611444360083600007730450221001113495656011994443600634000035344102412011129700910119944436005760318380943023050111859195404269444360006000004516450220501118576048056974443600423000047974102412011134531390569744436008720068897557517120111300213900000444360087108048605390251201118302193079904443600766376050784502207111156947161059200036006430000419143023071111308580010592000360079900004323430230611118259407105920003600836000066414502207111141535811059237836007140067901462515101111419834010592064360070405498548430231001118323753)
 (.leaf 10592444360068200678836450221001112971257081774443600742153223104502205011161474451059244436008651532231039025120111622592810592444360077903177303450220501116088103105924003600627137372974502205011157448401059240036006212582725247521050111584776607463444360068200004904450220711116170178105924443600176000086144502216111157134641059244436001760000843845022161111657678110592444360022100009015525191611118975499105924443600026000089275501816111187620400768944436007421202571333028101111663154210592444360005700008596430231611113616186105920003600221000084043502716111160216251059200036002320000870852519161111350557110492444360070400008633390251611116279451)))
 (.node 2 (.node 1 (.leaf 10492444360064300008650410241611116278843104924443600170000051454302307111162212720569744436000570000381145022070111603310309780444360010000007432390251611118554146092864443600232000071254102416111158004860991944436004130000535741024161111848009210134444360023200005755430231611113147405098094443600000000049044502207111130342350980944436000110000839647521161111324533910592000360000000006509450220711113347996105920003600682000084384502212011132397680000044436007990000387645022160111784921105357444360000000003847450221611115343681051484443600000000050894502216111158769210358344436000000000399645022161111588076603644444360000000003620450221611115479445)
 (.leaf 3187444360000000003362450221011118284506030804443600000000034214502207111129704120309444436000000000346845022100111611930203358444360000000003468450221001115766844068144443600000000035274502210011157447810000044836000000000259745022100111297083503817444360000000675529450221001112794772011994443600000000052164502210011153545910119944436000320000259645022050111281491902010444360013400004744450220501114243913042694443600057000032874502205011158535050426944436000570000342145022050111580260404269444360041304377710430231201116012677056974443600742019788164752112011131810080000044436008772063883141024120111286186207231444360019228835319430230501116297198))
 (.node 1 (.leaf 5628444360082424016032350270501115838706098524443600605160187104502216111158166231059200036002211282639452519071111849598309705444360022100008317450220711115707510105923683600742000072354502207111137229501004644436006860000889357517071111583653110592378360071406789000625151211118904171105920003600777174375744502210111137288231059221336006821368876345022080111826573210592444360068223022310450220801113612781105924443600689199223104502205011160194690817744436006861449231045022080111874917509604444360077100002310525190501118338027105924443600689067884884502205011163298351059244436005851743722552519050111577601507795444360054011928852475210801113375687)
 (.leaf 6180444360091109038996525190501116049356093134443600839000088164752112111142275940874544436007040794773145022121111830344210592000360061301966966450220711113027606105924443600442000076134502216111186434481059244436003490000860050020161111597620910592444360022100008899450221611118570652105924443600100000088994502216111162371631059244436000200000903770012161111622829610592444360002100009004700121611119284097105924443600334000088776001616111137029101059244436004310000901657517161111615219310592444360048600669009575171611116262424105924443600682000089665501812111162165071007544436006863274892755018121111589045308411444360074223027731450221211115512973)))))))))
 (.node 128 (.node 64 (.node 32 (.node 16 (.node 8 (.node 4 (.node 2 (.node 1 (.leaf 10592000360082818115131370260711113455704105924443600221000084213502716111140428201059244436002320000843845022161111342516205697444360002700002091450221001112958807105921483600021000039524502210111182525330917144436001700000793839025161111311756808787444360001900007590430231611119128049099194443600232000077104302316111132877340991944436000330000531943023161111329963609777444360007200004891430231611113005286098094443600013000042574502207111188810780980944436002570000410945022071111567639509809444360000000002944450220711113070646098094443600000000034894502207111182978690980944436000160000819147521161111821179110592000360000000005565450220711113369575)
 (.leaf 10592111360015700002780410241001113119712000005243600824000025884502216011127793940509144436000000000544045022161111511170805170444360000000004820450221611116098977045144443600000000049124502207111153885320399744436000000000406645022071111596296802866444360000000002728450221011115878422051054443600000000052474502210011184597880681444436000000000533545022100111831294803943444360000000003684450221001113126234000004483600000000035584502210011182193120381744436000000000609745022100111799257906611444360000401966776450221001115875186042694443600870090386974102412011186717710569744436008701811890960016120111334187400000444360087007948388410241201115604310))
 (.node 1 (.leaf 444360087221078957450221201113121353064704443600627168069964102405011156596890574044436006391094622237026050111609589608016444360058500004280500200711118794037105920003600221000085205251916111184077391059200036002213969494450020071111321247110592000360022100008317450220711118090255101624443600221019486144502207111156547420998444436002210997876345022071111590236309657444360061700006813450220711116067890105922233600613282587634502208011157282921059244436005401596231045022050111581120810592400360054014438833500200801115867705087454443600742089957564302307111132900250979344436003410000457745022071111323154210592444360030700007496450221611115908658)
 (.leaf 10592444360033400007547500201611113809776105924443600366000084635002016111159272821059244436002070000838345022161111963915510592444360010000008993450221611114969732105924443600257000090145002016111168913791059244436002070000865652519161111354936010159444360061300008520525191611116126433093984443600819089985114302312111159899291059244436006170000848741024161111618820308474444360070940278383450221211115929198105920003600669224880984502216111136982541059244436000190000556445022161111619851910592000360022100008498370261611116036887105924443600232000083174502216111141904761049244436006640065883743023071111829126610492444360042300008851500201611115999398)))
 (.node 2 (.node 1 (.leaf 9780444360013400008123410241611113558948087874443600423000041873902516111154831350991944436001160000523143023161111821587309809444360001600004904450221611113336506105920003600008000067764502207111134559020521744436000000000527745022161111323647305174444360000000006208450220711115730258054224443600000000068004502207111157057280466544436000000000420745022071111570152304168444360000000004012450221011115169018051054443600000000071494502210111159118960261544436000000000582345022100111316083500000448360000000004800450221001112947895011994443600000000039524502210011181557280119944436000000000348945022100111552133301199444360001900003304450220501115473520)
 (.leaf 1199444360071400002741350270501116395200011994443600698000037113302805011163731150201044436000320000299643023050111586507504269444360000000003304450220501118880708042694443600000000036564502205011138866620426944436008420000868443023120111387734905697444360071400006711430231201113565710056974443600870006587284102412011156922690000044436008771738898850020120111298210206390444360058503147369410240501115140444061794443600915043378533902505011164091680780344436002321181464655018071111575479108693444360042300005811475210711116029511105924443600221000088704752116111168414281054844436002210000876252519071111304336010592000360022100005232525190711115470179))
 (.node 1 (.leaf 10592000360022105445251450220711115677812105924443600528078489665501807111159681741059247436004420000895745022071111598232210592005360083617338028330281001116220361105920073600832031278372903010011134011821059206436006820784881845022100111387555908177444360068200002310450220501114006504088234443600601108485284502207111128553690979344436001640000793445022161111880836810592444360018600008438450221611113371128105924443600136000089955501816111191442371059244436001860000887245022161111978480810592444360010000008977475211611116149227105924443600322000084325251916111134809691059244436006170000792555018161111590639010592444360083700008620410241611115885972)
 (.leaf 10592444360001700008698430231611118764262105924443600104000086654502216111160895101059244436006130000819241024161111588356910592444360023200008743500201611114942898103984443600192006485013902516111137123551039844436000170000533845022161111398896410592444360028300008471370261611116159480105924443600232000085734502216111137216340960444436002470665353441024071111333048609780444360005500644400410241611113558069091714443600116179767904102416111157404380991944436005280000743239025161111575086309969444360002700004737430231611115696936098094443600055000048164302316111157816120980944436002320000876345022161111858431110592000360000000007731450221611113634962))))
 (.node 4 (.node 2 (.node 1 (.leaf 10592111360001900009040625150711116078255105921113600613054487423902512111187771240960444436008420000212741024050111335420600000444360000000003858450221601118316335051524443600000000036564502216111136321570492144436000000000553545022161111599187805610444360000000006737450220711113430481051054443600000000073984502210111133789260261544436000000000629845022100111572662202615444360000000003583450221001113438864026154443600000000033044502210011159353490381744436000000000408645022100111812744201199444360068600003073370260501114035544011994443600825000067904102412011169552260119944436008250000654341024120111527617401199444360068900003711330280501118819169)
 (.leaf 4269444360082800006483410241201116097141056974443600807000046013702612011191477410569744436008480000856841024120111618027900000444360087020938745410241201112912949000004443600867135589264302312011139673600763144436002320000464655018071111550375507906444360015713485173450220711113309906105923683600293019288184502207111135265951059262336007140192878145022101111315832210592005360083604306808310291011113697820105924443600592255787804752108011133439991059244436005170655861445022080111325501207181444360054018558743500200801118750676090384443600779108089425251914011160019590453644436008752557901560016080111401905508144444360068200007008525190711115989319))
 (.node 1 (.leaf 9149444360033400003952450220711118675568097934443600221000059584502216111161248031059244436001000000902052519161111591405310592444360022100008916450221611119050688105924443600019000081307001216111169189301059244436003840000851350020161111395112910592444360045000008176550181611114010507103964443600357000085665251916111140037231059244436000130000874843023161111631447110592444360023200008488450221611116285037105924443600232000088004752116111161591461059244436002320000881452519161111621670710505444360001900008550675131611116094661105924443600019000088636751316111142987781059244436006342815881452519161111546398510592444360087917898916450221211115681648)
 (.leaf 10592444360001900008997700121611116139553103564443600019000089697001216111158864521050444436007990430852845022161111614955609579444360071406556670430231611114179724091714443600221000071254102416111132425330980944436002320000866545022161111409245209809444360000000007731450221611113820349105920003600000000074964502216111185527061059200036000210000729943023071111410851210592111360030713488993450221211119064206105921113600000000017084502216011155145520000044436000000000354345022101111538414606285444360000000007803450221011115795379051054443600000000060734502210111158195480525144436000000000642645022101111565298105082444360000000006298450221001115287126)))
 (.node 2 (.node 1 (.leaf 2615444360000000003776450221001115519471011994443600000000045834502210011128605550381744436000000000556545022100111363974201199444360000000003489450221001112960322011994443600060000032504302305011131718210119944436006860000395233028120111576920304269444360077900006653350270501116209400042694443600824000067114302312011157579180000044436008620000888343023120111271549408833444360023200005878550180711115694750081904443600357000051445251907111158309150965744436007900000817445022071111579005410592368360047700008614450220711115711288105920053600837031073522503210111135625511059200736006822363885345022100111604405408275444360085305408967450220501118577550)
 (.leaf 8177444360071404288899450220801116038214063184443600719367988795501808011203112400817944436005171171876252519080111805440710592444360052805408895525190801116121869045364443600849000090326001602011142998630783244436006390000330445022071111350435709149444360041300004257450220711113896556097934443600273000061674502216111140249291059244436000600000895555018161111447585910592444360002800009030650141611116049752105924443600207000090014752116111163672761059244436002730000876345022161111908871910592444360023200008383450221611118924324105924443600467000088014502216111160393191059244436002320000892852519161111606967210592444360023200008927550181611116166666))
 (.node 1 (.leaf 10592444360023200008762525191611116156403105924443600226000089575002016111160377181059244436008250654880343023121111604118910518444360084508858650410241211116013952095794443600621000068914302316111190884011039844436000270000564845022161111417097810592444360034100008263475211611119312187105924443600257054083344752116111189960051049244436002320000878145022161111892645710492444360023200008818450221611119055380104924443600232000088014502216111145477810981744436005920310595137026071111399476209604444360036600003624390250711115506596091714443600164042849974102416111134046900991944436006230000846243023161111584733209809444360023200008710450221611119237281)
 (.leaf 9809444360006000008910575171611114280319101734443600025000079144302316111157597501059200036000150000773145022161111424117510592000360000000007392450220711114839006105921113600020000090216001612111161390441059211136005400000876139025121111899889710592444360069824098993450221211114750647105922183600856000028843502705011157731711059211136000000000362745022101111299599804921444360000000003287450221011115924022050274443600000000063494502210111138127380523244436000000000619145022101111571316005105444360000000005440450221011118417614049674443600000000069974502210111137874250467944436000000000386145022100111535333500000583360000000002898450221001118065087)))))
 (.node 8 (.node 4 (.node 2 (.node 1 (.leaf 3943444360000000003583450221001113803204011994443600000000039534502210011135567230119944436008623424848741024120111956060800000444360083200006819370261201115808131000004443600828031068914302312011157468950000044436008720540887641024120111874130308707444360023200007805525190711115864080103284443600423018984994752107111132822560976244436002150000474445022071111573245209762444360024700004109450220711115696560079064443600825000038114502207111185444040998444436001980426540845022071111861268809682444360030700008463500200711115871583099734443600617000086225501807111157334951059236836007990061838345022071111922236610592368360083600007579270311011113470483)
 (.leaf 10592005360083601897145270311001115666952096134443600875297688374302308011160117350903444436008281962901245022120111611805008888444360080734879012450220801115180914081324443600945254590035251908011162308200620444436005050000900860016020111626533105859444360055805389010550180201116776050090384443600528149889936001608011134653941059244436000720000900762515161111905948310592444360034900008967450221611119159984105924443600100000089864502216111145625091059244436002320000880145022161111416274610592444360023200008665450221611114062024105924443600232000084384502216111157753171059244436002320000876345022161111608927710592444360023200008847550181611119391180))
 (.node 1 (.leaf 10592444360023200008868525191611114506063105924443600247000085135002016111145760621007744436001860000808252519161111360252409579444360001100007369410241611113946752105264443600283000085143702616111157173031039844436002210000790137026161111392854710128444360022600006939450221611116715265104924443600232000083545002016111143098091049244436002320000878145022161111931679510492444360023200008665450221611116446445104924443600450000088776001616111157956920923344436004130000418739025071111429360008601444360013400004816430230711118911342086014443600055000057564302307111189683540978044436004310000745535027161111430351509171444360023200007201410241611113464904)
 (.leaf 9969444360002100007838450221611113688577098094443600116000085325501816111160181540980944436000600000892557517161111413774110592000360000005384577450220711116236009105920003600055018979144302307111161664131059211136002320538874239025121111908357110592444360070913319000450221211119030789105922183600709000025473702605011135441190000046836001920000187347521100111572202604679444360000400002391450221001113723795048574443600000000027394502210111161133260467944436000000000223145022100111552732604967444360000000003325450221001118248980000004443600113000030194502210011183257130119944436006270308280537026050111933423504269444360069800005653330280501114288878)))
 (.node 2 (.node 1 (.leaf 9146444360023200007934450220711115135305100714443600221000083964752107111153067900790644436002830000474445022071111591709010592368360079901885173450220711115579370105923683600799000078384502207111137211991059201336008372706703525032100111515516305134444360099108778920410240501116986766082704443600467000090366001602011169618490744244436007140000614755018071111522347709149444360029300008488450221611114310893105924443600033000081935751716111153288401059244436001570000693945022161111482893510592444360001900009017700121611119262292105924443600273000084884502216111141557401059244436000240000904665014161111874263410592444360028300008763450221611113731707)
 (.leaf 10592444360023200008836450221611119013075105924443600232000088014502216111143317911059244436002320000848845022161111586802010592444360034900008488450221611116390963105924443600113000081935751716111188554141059244436002320000889455018161111473766810592444360016400008455575171611119147786094554443600366000076935251916111157855911007744436002320000826347521161111577066008402444360000000004283450221611115771784103984443600232000085845501816111159984461049244436002320000860050020161111592394110492444360022100008762525191611116005875104924443600176000088524752116111145561001059244436001440000886557517161111543354809640444360063400005314350270711116393217))
 (.node 1 (.leaf 9809444360010400008400575171611113987530101734443600028042473864302316111158439411059200036001830060845839025071111891451810592444360023203078699370261211114473849105924443600689006089864502212111191301211059221836005170000259645022050111349418200000468360059200002216475211001113196320046794443600014000032404502210111185851140467944436000000000312745022101111328997704679444360000000003806450221011115522628000005833600000000031034502210011130649120000058336000000000384745022100111339996103817444360000000003656450221001118230377038174443600000000041094502210011139385130119944436007660000375335027050111587820202445444360063900005059330280501116154460)
 (.leaf 6352444360070400003866330280501113898916063524443600766042452483102905011162134640762344436007661069593731029120111601197109063444360023200007731450220711115469874097624443600221000088164752107111156783980968244436006170000507845022071111564469409798444360041300008656525190711115768286105920003600844124977532503210111159559051059200036008420754780625032101111587844510592011360083239908304330281001114003884093754443600742018790366001608011153798680780944436005580000900160016020111623453007973444360055800003811450220711115812477091494443600357000054404502216111161713120914944436003340000688445022161111391644110592444360010000008528450221611114680693))))
 (.node 4 (.node 2 (.node 1 (.leaf 10592444360023200008916450221611114430828105924443600019000090237001216111154380531059244436000240000775370012161111915359010592444360019200008387550181611116444998105924443600366000083174502216111196595371059244436003660000866545022161111879107010592444360023200008781450221611114394057105924443600192000083834502216111159844881059244436001760000795347521161111607878110592444360022100008383450221611115951877105924443600134000081914752116111188527541059244436002320000853947521161111914170110592444360013600008864600161611119406831105924443600019000084727001216111144736051059244436006890000878047521161111901088810592444360022600008338575171611114310939)
 (.leaf 10232444360023200008283500201611114171074093774443600341000074505251916111143811461039844436000600000704752519161111896730610128444360002000008113675131611116907128104924443600104000085156001616111187336540833144436006050754654337026071111594394409075444360019200007480430231611115553336102074443600467000049464102416111156980780980544436003660972516939025161111570150309969444360005700003489450221611113597005099694443600018000076134502216111140778361059200036000000000730345022161111441744110592111360014400008968500201611115405259105924443600709064689764502212111191386191059221836006690187883743023120111600429610592218360074200008462430230501116004479))
 (.node 1 (.leaf 468360085800003192410240501119166709000005833600000000025964502210011154568190119944436000000000381145022100111572850404269444360068900004213330280801116299470042694443600742000042133302808011143577780244544436006690000461533028050111468699806738444360051700005469290300501115686985087974443600232000079534752107111157307130790644436008360000482745022071111439107910592368360002600005477450220711113803435100544443600257000085394752107111156499761059200036008651153826831029101111384405910592444360085822508449310291401118084668096394443600837000090275751708011162436930907744436003570000595845022161111571064409149444360032200005440450221611119534389)
 (.leaf 10592444360021500008614450221611116212669105924443600144000083174502216111188351121059244436001000000843845022161111599252510592444360010000009007475211611118693481105924443600026000077056501416111169153271059244436003340000895745022161111481175210592444360023200008528450221611119098280105924443600215000088994502216111162341871059244436001920000889945022161111630290210592444360015700008958475211611118925706105924443600033000090016001616111160669791059244436001760000826657517161111879591910592444360036600008528450221611115977950105924443600257000086005002016111187949791059244436001830000843252519161111457774610592444360004800008925575171611116600081)))
 (.node 2 (.node 1 (.leaf 10592444360001100008830625151611116078316105924443600232000088994502216111163978011059244436000690000853765014161111953862810592000360022100008694500201611119027839105920003600232000088524752116111162640661059262636002570000837052519161111594920508803444360000405327408475211611115666978083684443600000000029444502216111158528190926044436000690000671252519161111885442710398444360013600006874525191611118852879104924443600019000089056751316111137027181049244436001700000858455018161111422552710492444360014800008641500201611115986260104924443600164000086375751716111156841091059244436001980186877955018161111618659508864444360068905323901350270711114091657)
 (.leaf 10059444360001500003656450220711114000381099694443600215000083884102416111185995461041344436001040000821943023161111406956010413444360013400008684430231611115599025104134443600144000084624302316111185978101041344436000270000781643023161111891550010592000360021500008958475211611118935053105920003600198000084583902516111161699871059221836006862205900645022121111599262710592218360077903048976450221201116160007105923183600025000025964502210011135800800000046136001130000226645022100111543793110592114360000000003832450221011113565297046794443600000000035744502210111155889650467944436000000000243345022101111831587804679444360079300003729450221001118307674))
 (.node 1 (.leaf 583360018300005368450221001115206188011994443600000000040864502210011157210250119944436007140000363835027080111583481104269444360070400005861310291201114042619024454443600656000063963102912011143803060635244436006640532571333028050111897739506701444360068900004510310290501114251208104184443600232000088724502207111160905271055844436002320000542947521071111577166707906444360032200005864450220711115675429105923683600307000048274502207111158392351059236836001340000802045022071111596031810592000360083700007838450221011114664155098384443600505373990156001608011189942480927044436006343648903960016080111538550710592444360036600008665450221611115709923)
 (.leaf 10592444360040000008944450221611115961340105924443600232000089574502216111145223731059244436004310000857345022161111627338710330444360014800008400575171611114571250104314443600060000083746251516111193075901043144436001340000708257517161111641253910431444360022600007297450221611116000683104314443600198000056644752116111192444671043144436002210000852845022161111607400310485444360023200005338450221611116195462105924443600232000089164502216111195581051059244436000190000828470012161111440598510592444360020700008595575171611114680954102624443600592000081556251516111161272521059200036002320000843252519161111402083209631444360002200578157525191611115523090))))))
 (.node 16 (.node 8 (.node 4 (.node 2 (.node 1 (.leaf 9218444360022100008283500201611115922185081734443600010000045974752116111158277801049244436000190000802667513161111914000110577444360002100008113675131611115071685105774443600192000085665251916111189650110900744436005280000541637026161111438415809007444360055800006858350271611114423781099694443600164000077314502216111185736101002644436000000000761345022161111597989310592000360000000006144450220711114025058105920003600232030389944752112111139137701059244436000200000901462515161111650124410592444360001900578963625150711115158509105924443600019005789846251512111166986541059244436000211242897460016121111937350110592218360019801855873370261211114244498)
 (.leaf 10592218360071900007838450220501119400661000004633600664000030514502205011160602280000046336005670000259645022050111589769600000463360002500001974450221001118619396105921143600000000030074502216011136422941059244436000000000238845022100111535372100000583360000000002073450221001113516848000005833600682000033044502202011143547350000055936000000000326845022100111835376501199444360017600003239390250501115733181011994443600689018540313502710011137126770426944436006050000630631029120111429034502445444360060100007232310290501114238043024454443600709000059603102912011146113010515344436007140000306533028050111435675110580444360023200005356475210711114267692))
 (.node 1 (.leaf 7598444360077900002730475210811115996513105922723600714000027304752108011158240111043744436002470000848845022071111583040310037444360030700008174450220711115785367098944443600018000076134502207111155812521059244436006822046887245022101111910450009251444360050503019032600160801115873263103224443600349000064264502216111144183201059244436004000000876345022161111416973110592444360001900008130700121611115502669105924443600027000090466501416111195526911059244436002320000888545022161111457824610592444360017600008801450221611119051993103304443600019000069177001216111144657761043144436001440000897460016161111522015310325444360023200005864450221611116260422)
 (.leaf 10592444360019200008799500201611114664488105924443600207000090195002016111145086471059244436002320000883155018161111430056510592000360019200008708525191611114554205105926263600232000083705251916111149408071049644436005490000881360016161111570234909933444360003200006232475211611115108873092604443600021000062215002016111161758261059244436001640000884657517161111454952708864444360062300006858350271611114170968090074443600623000058353502716111145970031059200036006210000718739025161111587839410413444360002800007914430231611115748252104134443600144000084164302316111157614711059244436000190000893762515161111501013710592218360077901848967450221211114510563)))
 (.node 2 (.node 1 (.leaf 10592218360082401848986450221201119232989105922183600605000082414502205011141282430000044436006640000305145022050111853020210592444360000900002495450221001115366879105924443600170000021524502210011157277050119944436007090000428635027050111596175601199444360074200565285330280501114529928042694443600682000053793102908011150741120426944436007420000426735027050111496336204269444360066900006273310291201114610350024454443600643005662023302805011142223310244544436006820000608833028050111471678205798444360071900004384330280501116102131074134443600836000065023102912011158392221030644436001760000617345022071111618133210592272360068900002628475210811118787011)
 (.leaf 10592368360077100004109450220711114388684102254443600349000081744502207111158649131008144436001640000848845022071111604571110592000360014803007731450220711113817657105924443600639063989875501810111148198431059244436007930000900645022101111548075809938444360060107449036625151401118882006105924443600021000088704752116111145373351059244436005170000678943023161111458803110592444360036600008801450221611114998583105924443600017000065335251916111159263201059244436000200000903370012161111484971610592444360034100008968475211611114966028105924443600164000089574502216111142940401043144436002150000681555018161111931094610431444360001900008050700121611115061176))
 (.node 1 (.leaf 10431444360023200008781450221611115312821105924443600232000058644502216111148732921059262636002320000799552519161111485833910592626360000300007865475211611115911928089044443600019000052384752116111140920001012844436000640000710552519161111947994410577444360011600006927525191611119170403105774443600198000075165501816111143428651059244436001160000844847521161111467265009367444360066900005186330281611114378821093074443600799153870803502716111157862001005944436002320000826347521161111396254510413444360002400008174450221611118959595100264443600020000080204502216111157758331059200036000180000715247521071111619478410592444360001900008973625151611115785705)
 (.leaf 10592444360007200008955550181611116038305105924443600019000077606251516111189903801059244436001700000897655018121111927591810454444360002700008879550181211115819032105922183600293000061504302312111143838431059221836007190000793445022050111618708210592218360069800002307450220501118410076105924443600709000022004502205011157583531059244436007140000273945022050111583168410592444360054000002739450220501115982514000006264800643000043584302302011169299930000058336006210000759043023020111512691600000559360040000005114430230201114289108022164443600771030050013502712011189932430426944436006860000497433028080111473444904269444360066400005713330280501115211139))))
 (.node 4 (.node 2 (.node 1 (.leaf 5798444360068200004129310290501114650424055164443600742000037533502705011161974461059227236008190000396347521071111407708710592368360023200003952450220711115959974105923683600704000083174502207111158370791022544436007140054866545022071111436566210592444360064300009039600161011114210618105924443600592000068134502216111141959231059244436004000000779545022161111454742410592444360000000006426450221611114297603105924443600000000063294752116111187790971059244436000190000905270012161111373343210592444360036600008931450221611116103599105924443600366000089314502216111160286181059244436003340000893047521161111671810810592444360002600008937625151611114287372)
 (.leaf 10592444360023200008993450221611116307730105924443600232000085734502216111148824201059244436002320000852845022161111464236310592444360001900009033700121611115555543105924443600157000086715501816111144442411059244436002210000874350020161111457182710592000360023200008448475211611116422691094044443600057000051964752116111155691370919144436000040000365645022161111418440810492444360001800005585475211611116132708105774443600064000053775002016111143063351057744436001340000730755018161111465483410592444360018601818724550181611114485168092894443600623000071733702616111161005181045844436000000000739245022161111602435710442444360000000006776450220711116189288))
 (.node 1 (.leaf 9946444360000000006509450220711119239446105924443600207005489785002012111160008951059244436000190000898462515161111527795510592444360002000007836625151611119435248105922183600528018158944302312111146166381059221836008243204894445022120111963825110592218360079008489018475211201120054103105922183600627029889885002012011160596411059244436007420000727450020020111608634210592444360074200007885410240201116347639022164443600819000032413702612011194214960221644436007040298478033028080111598971104269444360068205255379310290801114876563042694443600766000044883502705011165746050426944436006390000571333028120111634079704269444360068200005805330280501114980793)
 (.leaf 2808444360068600005059330280501115131444028084443600689000069163302805011149968810579844436006820000429231029050111458804209133444360023200006071450220711116708940084534443600232000047644752107111162943700920544436000240000425745022071111899729310225444360047700008241450220711114198461097244443600100000079344502207111161898301059200036008350180759043023101111891484410592444360000000006583450221611114465021105924443600000000064264502216111159809261059244436000190000905270012161111389956810592444360011600007682575171611114524334103304443600148000052214502216111163204841033044436003340000544045022161111627466310592444360001700008573450221611115131417)))
 (.node 2 (.node 1 (.leaf 10592444360022100008573450221611114451386105924443600232000085734502216111148762241059244436002320000901245022161111931411110592444360023200009017450221611119096025105924443600232000074174502216111190693621059244436000570000838755018161111611481310592444360001900009017700121611115261898105924443600192000083185501816111188937970918844436000000297498445022161111574677908941444360001000004923475211611115862963105774443600024000057775251916111187291301059244436002070000877955018161111628530110592444360004800008964600161611114612903097464443600170000059204102416111165540471042044436000060000696645022161111637879310420444360001700007303450221611116164409)
 (.leaf 10458444360000500007731450221611114914840105924443600060000090095751707111189256421059244436000190000890762515161111475788710592000360057600007660450221211114167997105925463600824000059593902512111143645291059221836007902171627045022121111502618810592218360079002979013475211201114484484000005833600486000082414502202011162810290000058336006430000720141024020111874001901199444360057600532426330280501119049531042244443600517000025253702605011142892950426944436007140000483133028050111627278002808444360077900005507370260801119326070057984443600689000049743302805011146774761059244436002320000888545022071111628171007642444360068200003178370260801118928595))
 (.node 1 (.leaf 10592000360068200003501475210801116006888092054443600349005287104502216111146537041059200036003840000831745022071111458811910592444360084602968871430231211114971848075884443600898000090516751308011155672180655544436009794190904762515060111550236510592444360046700008988500201611116407377105924443600366000088534502216111143511101059244436000000000653345022161111620081610592444360000000006630450221611116040116105924443600000000066104502216111160053901059244436000000000669745022161111503756010592444360004800006586500201611116109217105924443600000000063994502216111160305421059244436000060000645845022161111415820610592444360002000009052700121611114560296)
 (.leaf 10592444360036600008986450221611116253752105924443600273000060985002016111159476051059244436003660000544045022161111588963910330444360006400005958450221611119855934103304443600134000065424502216111161104611033044436000550000629845022161111615825510592444360001500008412500201611114141614105924443600221000085284502216111160614531059244436002320000843845022161111452446810592444360004800009029675131611116121261105924443600019000090497001216111151171661059244436002320000808252519161111634793310592000360024700008555500201611116137769105920003600033000080404752116111187174120929844436000000000507845022161111584704409191444360001400005102475211611114680815)))))
 (.node 8 (.node 4 (.node 2 (.node 1 (.leaf 10577444360000600005305500201611114118531105774443600192000070155751716111160648431059244436001830000877955018161111499188710592444360010400008448475211611119610919105324443600782000078843302816111164328921059244436006690000825237026161111588256910592444360068600007455350271611116033447105924443600005000080984502216111161724851044244436000550000829243023161111454669310592444360001900008876625150711114570506105920003600576000063644502212111141957451059254636008240000593839025121111417277410592218360060100007000410240811116171960105922183600824084389934502212011162637320000058336005760000817445022020111643759004545444360014800004257450220501115630907)
 (.leaf 1199444360060500004250310291201116010865042244443600682000057133302808011162174960422444436007710000563235027080111642540304224444360068600005805330280501115097693042694443600782017954103502705011147527430426944436006890000632733028120111472286104269444360068600004615330280501116448339028084443600779000060513702612011148395700579844436007420000375335027050111499867010592444360023208418957450220711114982458094904443600819073489864502212111160448971059200036007790630854843023100111900549409855444360085800008650410241011118955840103584443600865000088764102412111157967231059244436000030000639945022161111897131710592444360001500006583450221611115909417))
 (.node 1 (.leaf 10592444360002400006657500201611116124843105924443600005000065084502216111158870591059244436001130000794745022161111904081810592444360036600008993450221611116345818105924443600334000072524752116111142525021059244436003660000688445022161111935016310592444360036600006298450221611119065296103304443600016000053384502216111187920451059244436000190000712570012161111605024810592444360014800008762525191611114833795105924443600232000080625002016111150433591059244436000220000903370012161111447365810592444360023200008976550181611119442810105924443600144000085376501416111150127471059200036000000000783845022161111425772209035444360000000004577450221611115524855)
 (.leaf 9494444360007200005276475211611115859290091914443600009000047444502216111146864071057744436002150000608655018161111433544310577444360006900005657550181611115811097105774443600215000060205501816111157408731059244436003410000831855018161111931545010592444360018600008671550181611114522451105924443600929230088034302316111163250851043244436004500000849565014161111658582910592444360076600008282330281611116455299105924443600232000086684102416111157609811059200036000000000848845022161111518345910592444360006002948846575170711119669637105924443600558000088534502212111151093071059254636008240000607543023121111440368010592218360070404096865330281211115784223)))
 (.node 2 (.node 1 (.leaf 10592218360071402948978500201201116243317084824443600870040989864502212011157329880569744436006820000863641024020111939969000000559360079000006758410240201115493467049614443600113005146873902505011191060850119944436006980519595137026050111596699904224444360058500005828310290501115239265042244443600777196169463702608011191057020426944436007660000541035027050111608236401993444360071900004615330280501119532532105923733600613000050593302802011161356440632144436007710841385735027050111937958306941444360079000004192370260801118990780070644443600835051983884102412011151618961059244436002320000887245022071111607685106763444360068200002996430230501114795751)
 (.leaf 9205444360054001764408450220711115879942092054443600779029348274502207111158681520950244436002470293783845022071111570066209291444360038402938174450220711115784566098554443600643000082624102410011149645671059244436000200000661045022161111483762810592444360001500006583450221611119300157105924443600221000079474502216111160436791059244436003410000802950020161111555180010592444360036600009017450221611119551629105924443600018000061434502216111153570601033044436006690000771845022161111912316010592444360068200007602450221611114335498104314443600057000052214502216111161476371059244436000190000694670012161111512876910592444360019200008924600161611115120772))
 (.node 1 (.leaf 10592444360001900008608700121611114917579105924443600018000089945751716111150477711059244436002320000817655018161111463257610592444360023200008813600161611115806015105924443600019000081307001216111154125671059244436000220000851870012161111617120110592444360011600008389650141611119417148105924443600232000086264752116111149576001059200036000150000795347521161111440026409851444360000000005724450221611115784951101404443600019000054645251916111192560641059244436000640000864960016161111945055210592444360034900007885500201611116079985105924443600025000089096001616111154471741059244436000570000895065014161111640653710592444360050500008959700121611116016034)
 (.leaf 10592444360019800008595575170711116319927105922183600824000060954302312111142973341059221836006890000757445022120111571639910592218360068200508094525191201114463521105922183600689121188844752112011190140030848244436008700000900645022120111998796508482444360091500006361430230201115668089105924443600871298371254102402011159777070000055936006390050407639025020111885721004793444360020700503753410240501118833576011994443600664029344883502705011158448920422444436006050000568731029120111637659704224444360068200004725310290801115497600042244443600698000058363502708011165970740199344436006890000403233028050111599163402808444360063400004586330280201116231403))))
 (.node 4 (.node 2 (.node 1 (.leaf 6536444360068200002741350270801119075956094524443600400040558644502210111157912180932844436008480626533845022071111562659710044444360043100008383450220711114050283094674443600028017545774502208011153029881059244436002320000901745022161111724029610592444360036600008488450221611115976168105924443600016000064844502216111160354211059244436001640000656245022161111499558710592444360000300006612500201611115963426105924443600198000079714752116111158002821059244436003660000901745022161111946797310592444360041300006270450221611118999639103304443600014000058654502216111160268571059244436000260000815562515161111943394310431444360047700005034525191611116446334)
 (.leaf 10592444360001900008561700121611114949390105924443600226000089376251516111148740311059244436000190000685070012161111544213510592444360005500008724550181611115968848105924443600232000089936001616111159628581059244436001480000884565014161111576985110592444360020700008482625151611114620932105924443600232000085205251916111154318901059200036000070000535647521161111444754808688444360015709306772500201611115812100091914443600016177251964752116111189775261014044436000130000577752519161111462831410577444360023200005878550181611115638299105774443600176000057305501816111186381441057744436001040000563552519161111899275610592444360002100008935675131611115473419))
 (.node 1 (.leaf 10592444360071400008584550181611116004109105924443600714000089115501816111164134281037444436008620000889162515161111598892009720444360002200008463500201611115715574102014443600682051588364502212111191411291059201536000250000492347521121111917581310592010360077700005614430231211115989741105922183600714004947422703112011189916221059221836006890731720750020120111475186510592255360059201757310475211201114892451084824443600799093089864502212011162587120848244436008750000677645022020111624563505697444360086200006966410240201115008286105924443600682000085684102402011163490960413144436006170000320833028050111591009510592425360063900005579310290801115687723)
 (.leaf 7481444360001501754718350270201116375251035544443600007000061583702608011193173610585844436003220405717337026020111601394806692444360064300004488350270411116400652093284443600839000054084502207111186647770938744436004310000783845022071111585902109387444360022600007731450220711115849893105924443600000000066104502216111144393031059244436000090000665245022161111947400210592444360000900006585475211611116124095105924443600000000065855501816111150633501059244436000000000676255018161111502894110592444360014800008053550181611118833865105924443600450000080104752116111147014091059244436002210000899345022161111631038310592444360001500007495450221611114528871)))
 (.node 2 (.node 1 (.leaf 10592444360001800006173450221611114404357105924443600113000089545751716111158010091059244436002930000898645022161111613247510592444360002200007717475211611116751620105924443600000000076855002016111160507641059244436002320000591460016161111605237310592444360021500008937625151611119389745105924443600232000090326001616111153277371059244436002320000872647521161111902474110592444360000000008383450221611115790711105920003600634000084765251916111188743480985744436002320000622460016161111453903310592444360062300008928525191611115958662105924443600232000076394752116111192666501059244436001040000902662515161111516251510592444360014800008771625151611116546781)
 (.leaf 10592444360040000008730650141611115991806102314443600709000084197001216111146219770935144436000250000822852519161111583210110030444360018600008846575171611115811260096724443600057000058555251916111159402401020144436008240926893145022121111510548410592010360071400005241290301201115179562105922183600198000052353502712011157675641059221836007140174705227031120111909529810592218360069802908107310291201118986092105922183600072000069415501808011192614271059221836000600000681555018080111927920810592255360046704047225525191201115033592105924443600442029088785751712011146911820848244436008361200901245022120111667513208482444360070901748897500201201115091403))
 (.node 1 (.leaf 5446444360055800003328330280801118858955049614443600617000032733502705011157713800748144436000690000615837026020111924499410592373360003200005314350270801116130745079984443600549000073773502714011158139310898444436008560000889041024120111587414207727444360000000007080350270201115694134069624443600682000022393702608011160694791030744436008480000888545022071111550507709401444360034100005456430230511114807951085984443600870000081623902514111164029341059244436007900829852835027140111604941710592444360089000008489310291411116106939105924443600400000089675251916111187145931059244436000550000661045022161111891282510592444360000600006630450221611118849171)
 (.leaf 10592444360001600006484450221611114894529105924443600000000067835501816111151477761059244436002570000801047521161111995978310592444360022100007871450221611116552894105924443600100000080545751716111193470571059244436002210000792845022161111921881510592444360029300009038575171611116296425105924443600366000090234752116111161303401059244436003660000901745022161111622875210592444360001900006302475211611115011518105924443600015000076604502216111155265751043144436005670000713957517161111608991510592444360017600008833500201611119553909105924443600198000087576001616111148874061059244436002210000537760016161111585575210592444360002200008709700121611114979696)))))))
 (.node 32 (.node 16 (.node 8 (.node 4 (.node 2 (.node 1 (.leaf 10592444360023200007888600161611114814720105924443600048000057856251516111159466041059244436002320000851560016161111971830910592444360023200009027600161611119887655100454443600004000046814752116111151036210964244436000000000566245022161111514465010314444360023200006299550181611114802054105924443600176000054115501816111192600721059244436000270000534055018161111930721610592444360019800008814525191611115483324102314443600198000083566001616111150821761059201536007710000860237026121111946059110592218360071411016624270311201115720741105922183600714092451552703112011156655651059221836007140000671527031120111555856110592218360084400006995330281201115993092)
 (.leaf 10592218360011600006834475210801116276100105922183600207000077026001612011166654461059211736004000402723545022120111595531810592444360021505127926650141201115981908105924443600858176786993702612011162677600848244436008880000440845022020111918576202745444360093400004120410240201116087465105924443600682000071873902502011154996720469744436005850000408933028050111605903305376444360054900005410350270801119010318053764443600307000042804102408011160314930748144436008423591788541024120111508855606581444360079000007310475210411115788318099144443600945000031545002008111160883050938744436006270000817445022071111477100509401444360063400467681410240801115347683))
 (.node 1 (.leaf 10592444360000000006508450221611114520851105924443600003000066784502216111147419391059244436000080000678762515161111487954110592444360013400008148650141611116224420105924443600221000090174502216111152307471059244436002570000792845022161111525452910592444360030700009041575171611119429929105924443600334000066794752116111189791721059244436004000000788945022161111881243610592444360000900005930450221611114864626105924443600006000000000000316111189221651059244436000180000723545022161111577735110592444360036600007630450221611118911913105924443600000000064264502216111161983871059244436003070000817445022161111634856110592444360036600006813450221611116264582)
 (.leaf 10592444360022100008757600161611115220739093184443600232000084186001616111158912830948444436002150620552250020161111650734410179444360046700005648450221611116165745105924443600028000052325251916111188034241059244436001640000853947521161111608586610592444360023200008851500201611115141233105924443600057000090456751316111162079021059244436000190000897067513161111525925210592444360003300008922650141611115816906101234443600782000068565501816111175006151012344436003410000838965014161111611307310592444360068900008605390250711115510283105924443600689000086834102407111158960771059201036006890828542141024121111577641010592165360010400006669475211201115724051)))
 (.node 2 (.node 1 (.leaf 10592034360028300007275600161201115816449105921393600247062068354102408011149874441059244436009380509856635027120111634141509658444360101224688876410241201116347315104304443600845000090134752112011163229350811044436008580000838345022080111953436310592444360068202886348410240801114847825053764443600293000028053702605011157781911059242536000080000552337026080111536950704224444360014400465632350270201116192253050164443600766050976083702602011150255660974444436008190000876139025140111538667607686444360086521398650410241401116031541099144443600848000047155251910111153006680991444436005670000442147521101111597761609249444360027305084970430230711115845001)
 (.leaf 8170444360032200007934450221011119647904093604443600832000088904102402111162697691059244436002570000898645022161111571288610592444360000000006630450221611118994486105924443600021000090447001216111151513611059244436001130000816567513161111530342110592444360019200009028500201611116603279105924443600334000080325501816111192067341059244436003410000797352519161111612157510592444360028300007909450221611114847693105924443600334000090375501816111156090221059244436000100000617345022161111454552210592444360001800006234450221611118745679105924443600017000075744502216111146682021059244436003490000878145022161111899197410592444360036600007523450221611118840822))
 (.node 1 (.leaf 10592444360029300008383450221611115910035105924443600000000043165751716111159446501059244436000000000397750020161111947638010592444360023200006918600161611119229417105924443600232000087576001616111160548231059244436002320000897460016161111467180110592444360001000006224600161611114874559105924443600026000064175751716111191678211059244436002320000903260016161111937117010592444360019200008830625151611116178205105920003600104000070265501816111158204891059200036000000000482745022161111456508109514444360000200003489450221611115371714103144443600192000085325501816111162127601059244436001830000546662515161111612424710592444360022100005478550181611114531451)
 (.leaf 10592444360006900008847550181611115333737105924443600183000090346751316111157288941059244436000190000880667513161111505429110123444360023200008814525191611115734172101234443600232000087576001616111187353271059244436002320000881360016161111890915810592444360029300008876625151611115908759102994443600686000082646751316111143825771059244436007140825555833028121111475502110542444360071400008404350271201119174928105921283600879000064463502712011164489261059204636007140286613327031120111525075510592027360034100007674575171201115843435105920273600307000070976001612011161199051059244436008750000892041024120111616521905446444360068200003778390250201114953643))))
 (.node 4 (.node 2 (.node 1 (.leaf 4697444360019200004822370260201115953182016404443600682000037783902502011158225140537644436006820000514643023080111940199606526444360060100455686350270201119112385079634443600742004571303702612011191398560991444436008351878829243023121111933367408170444360030702854662450220711114597821105924443600357000089204102412111151712221059244436003570000892041024121111434038310592444360061700009029525191601115656946064854443600824000069553102902011163180890958544436007930000793535027140111618691109257444360079301698876410240211115163348105924443600113000065344752116111150694501059244436000000000650845022161111587574310592444360000000006630450221611115832290)
 (.leaf 10592444360011600006659575171611114924374105924443600144000071576001616111158559121059244436003340000903755018161111622990510592444360001800007630450221611115610544105924443600033000068134502216111195153191059244436000050000500257517161111876276710592444360021500009045625151611115969640105924443600057000055705501816111149543821059262636002320000851560016161111465159410592000360023200008418600161611115620382105920003600069000050695501816111188307730957844436000000000457745022161111903897510314444360010400005029500201611115854346105924443600207000071805501816111159919681059244436000720000881452519161111492345210592444360001900008339675131611115703164))
 (.node 1 (.leaf 10123444360023200008739575171611114701382105924443600232000087006001616111159937501024244436006691093555833028121111450560110562444360071900005628330281211118677059105921283600819000065023102912011158658031059203036008820000585935027080111958130610592046360010000006911350270801116063821101854443600400000073584502212011190812030986844436008650169898645022120111572683510592444360060500007369410240801116404482054464443600682000064653902508011159945290544644436006820000618439025080111624361104697444360064300004342370260201115733717059934443600639082363244752102011194359511059242536005050000662545022080111624520909250444360002400006786350270201115773773)
 (.leaf 10217444360029301697832390251401115338934102564443600442000071673302814011186666091028644436006130507745435027140111587468607320444360058500447167330281401114947049070264443600558000053393902514011158837210991444436006230000831745022081111550390709914444360023206145564450221011116062101081704443600639039680494102414011198031821032144436008700000858435027140111625396608922444360115900008840390250801116779685105924443600176000073905751716111192312151059244436000190000905270012161111482204610592444360007200009051675131611119184911105924443600307000090415751716111162756341059244436003070000904157517161111612398310592444360030700009038575171611115808787)))
 (.node 2 (.node 1 (.leaf 10592444360040000009012450221611115347880105924443600015000064844502216111154761291059244436000180000648445022161111854307310592444360001800006399450221611114745881105924443600366000077424502216111148939651059244436000070000688445022161111519666210592444360022600005708500201611115944033105924443600576000049904752116111151455721059244436000140000900257517161111931613010592444360028300009007625151611115746338105924443600617000090497001216111165198981059244436002830000904562515161111629144510592000360023200006770600161611114907211104024443600232000089386001616111157805710986144436000062168476447521161111898022110592444360013400005657550181611114925548)
 (.leaf 10592444360006400008762525191611114996450105924443600019000081906751316111193369641012344436000220000826467513161111683426310123444360034900007605675131611118925188105924443600698000089597001216111160734051006244436008240396889750020121111567313510592071360047700436594310291201116141838105921253600283233880394102412011158684141059244436002730614894447521120111597854704462444360069800004400410240201116132688054464443600682000069334102408011165456780435644436006820000383641024020111580976010592194360080700003479430230811114960437081704443600709004245974752110111160400660988944436008320503853839025120111615676110592444360063424568711370261411116105154))
 (.node 1 (.leaf 10355444360077900008655350270211115478292094064443600247000086423502702011144741251059244436009400167851635027140111583262610344444360086505038728410241201115522647088854443600742050382953902512011157408721059244436005050000903857517161111581314910592444360015700008986450221611116137265105924443600069000065625501816111194572571059244436005850000577170012161111605735310592444360034100425389625151611115790054105924443600019000090527001216111156978651059244436001920000904062515161111949560410592444360025700009042600161611116380868105924443600207000090476251516111164047361059244436001760000904762515161112003295110592444360013400009049650141611119571558)
 (.leaf 10592444360028300009036600161611119273575105924443600018000064264502216111151392761059244436000180000653345022161111894349310592444360001800006458450221611118931141105924443600283000079094502216111152883501059244436003660000896745022161111603005910592444360036600008174450221611115181262105924443600148000068134502216111161466051059244436001440000904665014161111610925710592444360022600009040625151611115834518105924443600232000088776001616111162819311059244436001570000903065014161111893799410592444360023200009032600161611115880986105924443600349000074456501416111193212730972544436000640000616745022161111477481610592444360000000004269475211611119199601)))))
 (.node 8 (.node 4 (.node 2 (.node 1 (.leaf 10592444360010400006020550181611115130870105924443600027000090426751316111190038781059244436001860000897067513161111979933210592444360001900008949675131611116464392101234443600517000080936501416111161298331012344436002320000830362515161111623691010123444360023200009035650141611116316334101534443600766000076584752112111160048060997444436006690000700035027120111555596310592000102071409125081270311211115145483105920713600349016769443302812011158147701059212536003410000719857517080111591923510592027360048600007354525191201115062268105924443600793000072014102408011161604011059244436008490000788541024081111602458005446444360074200004148410240201114735782)
 (.leaf 9604444360068200004922390250201116120613099144443600982000053405501808111150228570570544436009150713413950020101111592923506133444360088200007763350271401116514293047754443600872000083213302814011162765951035544436007140000855535027141111638195208875444360060100008711370260211115829066105924443600019000090527001216111157898101059244436000190000904970012161111910059710592444360001900009041700121611115993555105920003600664000063324502216111190611921059244436003660000901245022161111573579710592444360036600009017450221611115904169105924443600366000081744502216111164539061059244436000020000757050020161111572248310592444360000000005662450221611115730710))
 (.node 1 (.leaf 10592444360056700006996500201611119422321105924443600148000090436501416111190598451059244436001440000903965014161111527322710592444360019200009036625151611115421440105924443600232000076806001616111157754801059200036002930000781162515161111573214110592000360023200007650600161611114215170105920003600232000069766001616111145415640972544436002320000498445022161111484102909784444360023200008557600161611115733623082374443600322000077815002016111156875341059244436000090000502950020161111611515810123444360056700007555625151611116241182096804443600627000071143702612011157970951059203036008280000504631029121111885063810592050360079900004921290301211114825664)
 (.leaf 10592125360028300007157600160801119393783105924443600844000084083902512111153686040165044436007770000743239025141111592086409604444360068200003359390250201115164060043564443600682000042133902502011192309720902944436002930041848845022120111587027110592444360028300006741270311201116480741062534443600870000067114302304111162420760994044436008700000314747521081111522133906226444360094100003694525190811116186798099144443600955000048274502212111151098840561744436006131917505443023101111574133207852444360087900005808290301401116372048089514443600307000083043302802111156768250795444436007040000846135027021111586069808653444360074200006711430231411116358579)))
 (.node 2 (.node 1 (.leaf 10592444360013600009047625151611119405649105924443600069000090517001216111193320621059244436001640000674960016161111920441410592444360017000007682575171611115375568105924443600019000090517001216111165063951059244436000190000905270012161111713122910592444360001900009052700121611115996007105924443600019000090527001216111162780641059244436000190000905270012161111909048410592444360001900008989700121611116121119105924443600019000090527001216111163918901059244436003490000902347521161111898856610592000360036600006583450221611114769553105924443600032000076874502216111159186271059244436000130000893145022161111906707210592444360010000008986450221611119076490)
 (.leaf 10592444360001900008029500201611115911684105924443600273000079125251916111158961771059244436001340000904460016161111638458310592444360000000007574450221611118814893105924443600585000077314502216111153186971059244436000600000902160016161111562088610592444360022600009031625151611115724398105924443600113000090356501416111191693481059244436002320000903960016161111479994310592000360023200007342600161611115951949105920003600232000085576001616111153640851059200036002320000730755018161111580149209518444360000200003670475211611115224234100924443600634000087435002016111157949211059244436000000000383650020161111499637210592444360017000007097600161611115214082))
 (.node 1 (.leaf 10592444360014400009029675131611118688756105924443600207000090497001216111160123831058244436002320000828470012161111607183610592444360019800008520525191611115696438090954443600592000064044302314011150129731059228736007790164538333028121111485738310592050360078200005058290301211119046249105920713600704039149073102912011146656611059221436000240000698447521080111619908610592027360043100007307550181201119080304084494443600442000069415501812011160246440549944436008320000816333028080111576656409604444360071418566579410241401119255666096044443600742081468754102414011188509950453844436006820000323939025020111931082209703444360062101646951350271401116160262)
 (.leaf 6542444360087000006271430230811116236958056704443600879000038764502208111191739430622644436008580000471835027081111590369906252444360095000005478550181201115915309088104443600849116882463102914011163124490775344436006270000850435027021111569322706684444360082500004264390250201119404437098794443600413016384874102414011160976761059244436000150000898365014161111516087410592444360001900008989700121611115596897105924443600024000090326001616111198417551059200036002570000901745022161111626463210592444360023200008165675131611116125360105924443600273000064215251916111161504821059244436002830000572445022161111925717410592444360002700006498675131611116091305))))
 (.node 4 (.node 2 (.node 1 (.leaf 10592444360036600009012450221611116420646105924443600019000081307001216111151896551059244436000040000687452519161111595342610592444360001500008942525191611115405402105924443600226000090366251516111150247441059244436002320000901560016161111576392910592444360023200009042600161611119543176105920003600232000072816001616111196092091059200036002320000835660016161111558206710592000360023200008649600161611115847034105926263600257000088646001616111154650171059200036002320000517345022161111515036209547444360025700008611525191611115846433105924443600008000044425002016111190886181059244436001130000701557517161111922840810592444360077100009041700121611114342396)
 (.leaf 10592444360077100009028700121611116645658105824443600232000079617001216111162622741059244436002320000851350020161111583013209738444360057639677417450221201115972240105922873600793191151283102912111189182681059221436003490039819357517120111543445208652444360054000005727525190801116056453068464443600870000086204102408011164633820991444436006210039518739025020111579997303108444360068200004623390250201115743363045384443600682000034644102402011154044670698944436007040000702539025141111601441209958444360068200007187390251401115767745062264443600836000042174302308111159929500622644436009302064554543023080111593725106226444360094304957408475210811115927211))
 (.node 1 (.leaf 8859444360083600008342310291401115428379105924443600824000090285002005011145918450847844436001440000828233028021111622065508429444360078200006885390251401119469698072904443600779016263933902514111162457951059244436000160000809167513161111578181110592444360000400006792525191611115878931105924443600015000090136501416111163120621059244436000100000903660016161111618640410592444360001900009052700121611116383884105920003600366000064844502216111149335251059244436003660000901245022161111908626710592444360001900009047700121611115836749105924443600019000090497001216111144637361059244436000000000791047521161111585798910592444360000000006939450221611116535354)
 (.leaf 10592444360010400008303625151611115238308105924443600232000087576001616111158769361059200036002320000855760016161111521369410592000360023200008557600161611116292203105920003600232000077645751716111147238381059244436008370000880145022161111566256808767444360000500003963475211611115505131105924443600000000050295002016111161039221059244436000090000645747521161111525069210592444360017600008537650141611115409389101664443600232000076776251516111161534171058244436002320000883350020161111542936310592444360023200008555500201611114937154093504443600576219872974502212011149612341059227836007140000582943023121111920483310592444360082800004907310291211118958326)))
 (.node 2 (.node 1 (.leaf 10592000360084900006381330281211115079151105921323600549000064145501812011155836340880644436005400603625452519120111927584107663444360054903886733550181201115931931105920003600634003871254102408011161626380718144436006340388657539025080111608109903108444360068200005755430230201120140757105924443600698000048943902502011157652970495344436007090000804941024020111578009305707444360085300003304450220811116372370058294443600835000031394502208111163229760502244436003570000614445022020111576296310592444360066400009018475211401116818726076014443600799000085383902502011157309250819744436008370494754239025140111604495610592444360068227778151290301401115210471)
 (.leaf 10383444360068204948090290301401116243080105924443600528000089314502216111155293481059244436001160000871362515161111981044410592444360006900008746675131611120107362105924443600006000078425501816111162933371059244436000190000809070012161111638802410592444360001700008053675131611116263975105924443600019000089897001216111160847491059244436000190000905270012161111689822110592444360001900009052700121611116851277105924443600019000090527001216111192798941059244436000270000901347521161111559362210592000360002800009012450221611115761440105920003600366000065084502216111153963541059244436003660000901745022161111522442710592444360023200009051675131611115418137))
 (.node 1 (.leaf 10592444360028300005724450221611115428538105924443600019000090447001216111196743041059244436000170000904770012161111646932110592444360000000007190475211611116291191105924443600003000075475002016111155696281059244436002830000900762515161111980938910592444360023200009036600161611115872729105924443600232000086496001616111161447531059200036002320000547745022161111474511310592000360023202768924600161611115042984104944443600450000073764752116111155194541036744436005490000498445022161111496220010592444360000000004516450221611116101757105924443600072000084826251516111159039721059244436002320000902967513161111546700110582444360023200008815500201611116046666)
 (.leaf 10582444360023200008694500201611116015410105924443600232000086945002016111156272080826644436005400807593441024080111481638110592516360070400005110330281211118804079105920003600714027649262703112111155355241059222236006270161708639025121111511421206199444360085800007735310290801116659163099144443600664000045594102408011153878381059200036006390494689143023080111519026406226444360070400004063410240811115933345062264443600709000046514302308111160332850502244436007930000565341024100111545019208859444360069800008357430231401116433946088594443600803000086144502214011160436181023744436004670000889945022140111628137407453444360061700008421350270201115627216))))))
 (.node 16 (.node 8 (.node 4 (.node 2 (.node 1 (.leaf 10592444360001400009044600161611116692460105924443600144000068446251516111193677531059244436005850000802970012161111583276610592444360001900009051700121611115154947105920003600028000089674502216111194702191059200036003340000667947521161111541198010592444360032200009023475211611115882757105924443600293000090375501816111194429871059244436002570000898755018161111528745510592444360002400008989700121611116041311105924443600019000090477001216111147120601059244436000040000789352519161111593380910592444360000000007495450221611115702870105924443600617000090117001216111156505441059200036002570000887760016161111568035010592000360027300008191475211611115211667)
 (.leaf 10178444360061700008710450221611115409743092434443600002000028474752107111189199071059244436000000000459747521161111578104810592444360059200008518700121611115170358101664443600232000079534752116111158062891016644436002320000795347521161111588371810582444360023200008539475211611116021887105824443600232000087995002016111157430490000044436005920989508339025121111575944610592132360051700005312550180801115325300105924443600719000088495251914011162136091059244436006340000889455018140111598466810592444360063400005825390250201119768798070824443600617000053584102414011158290340761144436008700000705433028141111570775106282444360068600003131350270801115721489))
 (.node 1 (.leaf 10592181360032200007135450221401115673980082314443600613000055654502202011163020311059200036005490000852337026020111577885904919444360080300008498370260201115575984105924443600019000090335251916111148638871059244436006170000818470012161112014189010592444360044200009051675131611115564538105924443600357000090527001216111162219811059200036001570000901055018161111535957410592444360019200009049700121611116202284105924443600183000089565251916111161021111059244436000190000905067513161111965396510592444360000000007769450221611115340784105924443600025000086885751716111161865731059200036005760000891155018161111918659810592444360020700008688575171611115815044)
 (.leaf 10592444360047700008566525191611115983132090274443600656000049044502216111191676880919244436006430000817445022161111604647209629444360022102745522500200711118702254105924443600007003547805002016111156568131059244436001360000826467513161111517588510592444360020700007693525191611119639457105924443600232000078855002016111168378561059244436002320000841250020161111915782910166444360023200007865475211611115733150105824443600232000077815002016111158224930766444436004860000642645022080111618539610592444360079000006602290301211115230724105920003600682235154573902512111152808331059200036007140274708639025141111573202709770444360054905997190475211201115965762)))
 (.node 2 (.node 1 (.leaf 9453444360034900007516550181411115867661103124443600719172286834102414011160949750653244436007090898731441024140111610176010592234360068200006790410240801116162071105924443600349000068134502202011158976280582244436006340384789745022020111629210106068444360087000008321330280811115472686078234443600656000056153702608011160200781059217936008440000365739025080111594995410592179360083900004042430231011114666598105920003600819000029063702608111151169110495244436008070000616745022020111664087104397444360063400005145430230201119159986043974443600714000085233702614011164052031059200036005490000665447521161111542645310592000360001000347166525191011116420161)
 (.leaf 10592444360000500007872475211611115799350105924443600605000090527001216111194425500000062636002260000905170012161111543355310592626360002100008011675131611115303330105920003600021000090146251516111148308591059244436000200000902662515161111589669410592444360002100009049700121611115935049105924443600257000090086001616111157796261059244436000190000905270012161111642022110592444360001900009048675131611116069953105924443600000000052514502216111152934441059244436000000000771747521161111574529709027444360062300003304450221611119110597105924443600617000086844302316111157317180983944436005580272883252519161111592154410592444360001000007805525191611118925049))
 (.node 1 (.leaf 10592444360025700008637575171611119041189097914443600232000067974752116111157588380806544436005050000664145022080111603587810592444360082507998494330281201119338441095974443600870003487994102414011166271460544644436007710382685039025020111591828205446444360068200006348410240801119948037105921543600836000086264752114011152414950507244436006860272881647521020111627170007563444360071400008994575171201115790574059414443600617000067904102402011201738910594144436007770000856739025140111679787707302444360083500008944475211411115487536064774443600617000086364102402011159680071059244436000600000905167513101111580288610592000360050500006364450221611114806113)
 (.leaf 10592444360001400008011500201611115472227000006263600621000080907001216111157584201059200036000210000801362515161111551105610592444360034900009036600161611115879184105921373600623000090375501816111191856561059244436000690000904470012161111593305710592444360010400008973625151611116062647105924443600019000090516751316111161054601059244436000080000904460016161111603681710592444360000700009039600161611115518986105924443600001000057394752116111154525791059244436000000000765750020161111574154110592444360063400009004700121611115936796105924443600617000089807001216111161964341059200036005850000887955018161111586440710592096360062100008884475211611119605151))))
 (.node 4 (.node 2 (.node 1 (.leaf 10592096360057600008577370261611116271971101584443600617000085734502216111157232801028744436005580000889455018161111569618808889444360001400002958475210711115850662094334443600232000062035002016111153171980864244436004860156673745022100111627573610592000360071900006306310291211114987515104884443600558000069753902512111191664400813944436009410000846135027140111679290605126444360064300007731450220201115894121070654443600623038154564302302011162318790741644436008370000723545022141111578473406553444360078200004559410240811115265439105921813600585003265434102408011159542560420044436007660032775339025020111588700804600444360066900006426450220201116126218)
 (.leaf 4594444360085300008836450220201116021697105924443600048000090486751310111164705221059244436000250000897362515101111553021310592626360001300007948625151011115806305105924443600016000077046501410111159087901059244436000060000797455018101111937131410592444360001900008090700121011119580782105924443600000000075744502210111159717990000000036006430000879950020101111661083910592000360002800007445650141011115299396000006263600334000090426751316111157714711059244436000210000855067513101111576663810592444360002100009052700121611119874137105924443600008000090476251516111163414351059244436000190000905067513161111606433810592444360001300006010450221611115465430))
 (.node 1 (.leaf 10592444360057600008532550181611116115816105920003600006000073705501816111157894901059209636007140000678829030101111626086708910444360062301558383450221611115941481094334443600232000071685002016111159716950943344436002320000681850020161111570901509349444360023200007569525191611115998913077794443600686027054153702612111148511110544644436006980000685039025080111955740710592000360074200008869500201401119707512105921543600779000084484752114011157246891059235436008960795889945022120111577177404156444360077700005305410240201116377812048544443600682000042133902502011158194501059243236006010000336143023080111593400204200444360082500003809430230201115652692)
 (.leaf 4366444360044200005241390250211115393584105924443600400000090446001610111158958581045044436000550000775567513101111587535900000626360050500007252475211011120706814105920003600549000072735002010111190625990000062636003660000787155018101111533011110592118360017600009048675131011115630798105921183600021000090417001216111157325631059211836000280000904970012161111904523510592444360002100009033700121611119717042105924443600021000090377001216111200577201059244436000250000905170012161111660098210592444360006000009037700121611116643067105924443600025000057884502216111156986601059244436005760000884755018161111513396910592444360057600008941550181611115491617)))
 (.node 2 (.node 1 (.leaf 10592000360059200008771625151611115974407105920003600714000067652903010111154167070902744436006980000432343023101111909694408528444360059200007934450220711115719782094884443600057000075695251907111154402640943344436000020000413950020161111962295009543444360023200008115575171611115245169083964443600592015471215501808011155669540853444436004230000691633028121111912464310592444360082400315508330281411115688844105920973600104000051464302302011190593490616744436006690031848845022140111620385709047444360068900007285410241401115695127066874443600643114789314502214011160700990482244436008910483881845022140111579907106155444360070922603883390250801115786317)
 (.leaf 5762444360066400003883390250201119376761057624443600643058954163702608011159197310526944436006230030739245022141111525871510592444360014400008990675131011116117668105924443600021000089236251514111189590421059244436001570000901552519141111886335110592000360085600006269475211011115665231105920003600824000063984752110111192942141059200036000210000805270012101111504149910592444360063400007385410241011115398467105920003600334000088636751310111157330501059200036000320000901365014161111889727710592000360002400008618625151611115633441105924443600021000087896501416111194936431059211836000210000851870012101111571737110592118360002100009049700121611119077220))
 (.node 1 (.leaf 10592444360003200009033700121011116238816105924443600057000088306251516111164435211059244436000600000904970012161111620524910592444360014400005078450221011115802917105920003600617000059645751716111153406221059244436005580000883155018161111880180010032444360019200008537650141611119094168105920003600576000060865501816111159889380960444436003410000859557517161111568961210592000360071400006903290301011115812441105920963600442000084583902510111192722751059244436006170000863543023161111530965308497444360000000002427500200711115455415094334443600006000039025251916111191757540943344436002150000826347521161111592781808868444360021500005924525191611119618236)
 (.leaf 8765444360015706956841525191611115700571094054443600232000082665751716111157716990714144436005400000607847521020111611860610592444360062105896180430231411115928695105922603600686151286204102414111157364701059226036008650153889847521141111565062604156444360065600005653410240201115985453051204443600828000089154752114011153591640894944436007420152869843023140111586216503645444360087006915221450220801115599244041234443600771000087814502202011199710001059244436005670000892755018121111623766410592444360055800008923625151411114928212000006263600192000076835501810111191363611059200036000480000899867513101111622566410592000360055800005878550181011115779709)))))
 (.node 8 (.node 4 (.node 2 (.node 1 (.leaf 10592626360060500006481525191011115675767105924443600021000086186251510111158864921059211836000570000876370012141111936687010592444360006900008934700121611119839531105924443600060000083396751316111157648561059244436005280000885150020101111587273810592000360000800005356475211011115555215104714443600176000086426751316111193462251059200036000600000631757517161111619563410592000360025700007323575171611115675252105920003600060000086375751716111163992190960444436000600000886557517161111588280410592000360087000298087270311211116120634105920003600714000068092903010111152716250899744436008700266297939025071111914528010592444360061700008764430231611115914808)
 (.leaf 8594444360000900002638500200711115243950092034443600013000044214752116111156534930921144436005850000765555018140111610603708534444360068200005457390251211115764274085344443600682000051693902512111191651990853444436005400000502941024121111919648804718444360066912976465390250201115880205105920973600613000053054102402011158654490856744436008350266731441024140111590442508841444360062700008800475210801119213388041564443600627000056534102402011198288701012744436006640373900952519140111576711208953444360068200008834475211201115750545067984443600848002847444502208111198757090605844436006010000441643023140111938695305465444360054000008781450220201119824095))
 (.node 1 (.leaf 10137444360055800008762525191411114679056101374443600605000088145251914111156413341047244436005580265748460016141111552115109604444360083500007795450221011115813623076714443600477000059546501410111153007001059244436000600000880667513141111574480210592444360006400008696675131011116152395105924443600072000088066751310111159787531059244436000240000570952519101111554426710592001360000100005585475211011119483834105920003600283000054554302310111188722460999944436000110000540845022071111570088510414444360006000008655700121611116167587105920003600157000071985751710111160788610960444436000600000886557517101111601634810592000360071400286788290301211116025265)
 (.leaf 10592096360054000004717410240711115312714094294443600257000086375751716111154208190831644436000000000240745022071111576175409331444360000900004699500201611115805206105920003600558193057244502214111158915021059249836006230000545739025121111528906010222444360043100007025390251411115870839105920973600623000068114302314011156598830856744436008752686858233028120111920485610571444360057600288697410241401115379292088414443600799000087104502208011157148160621744436008320028771337026140111586657308847444360054003728295390251401115641627070614443600978000071164502214011183945460476944436006210000565341024140111582754610592000360063900006813450221411119395160)))
 (.node 2 (.node 1 (.leaf 10592184360064300006680625151011115182709105921373600021000090496501414111155596931059248636000570000871362515141111572568510592444360083200008892600161411120272047105920003600442000051454302310111191335170999944436001570000610757517141111581172310592000360071900006808310291211115896846105920963600824000028963102909011153883830932344436000000000471835027161111959249610457444360000000005001350271011115240628099674443600283000086375751716111153864660915544436000180000772455018071111924791308660444360065600005653410241211115761450105724443600643354077954752114011159642290467244436006390000586639025020112006365204156444360054900008743500200801115748749)
 (.leaf 6327444360062702645545430230201116189575084914443600992014886984302308011162229800476944436005490000573239025140111975190706685444360062700008665450221401115899037094174443600585000085205251909011148404950923144436005850000862255018090111894392710137444360054900007447450220901119406273105920003600634000079644502209011158415221059200036001130000652265014090111574775509604444360091100007969450221411119115245105920003600682000059146001614111154753411059200036006980000604850020141111476430410592118360021500006421525191211115340481105924863600022000087985751714111159796710946044436008480000842135027101111595418210592625360018300005585475211011115567409))
 (.node 1 (.leaf 10592108360006000008969700121411116506902105921083600113047777797001210111159413711059210836006820000886460016101111575381910592096360082400005611310290901115516529105920963600558000022264102412111188021430932344436000250000452537026161111610770809323444360000000004422350271611115971391101494443600020002649663702616111160895050916044436001360000819357517161111584936409931444360054917557570500201401116756297105926163600656000069484102412111162898761059232636006563384591941024141111917309509709444360068212225386390251411115783357101684443600613000073584502214011156419701021144436006010000815850020140111576337608841444360082502638523370261401115932059)
 (.leaf 4156444360068900008869500200801115436703105925523600844156870433702614111187669430636744436007710000694841024140111614198209848444360051700008513500200901115822394105920003600176000065104502209011160979811059200036004230000699745022090111616033010592000360020700008114550180901119097970105920003600742000069394502214111154639051059200036007090000597250020141111874336010592000360058502616484450221411118900854105921183600400000079315002012111159110971059211836005170000702850020121111900141310592118360033400005612500201411118987791105921183600028000064166001612111188214281059244436000330000904170012101111959174010592444360084600009037550181011115938486))))
 (.node 4 (.node 2 (.node 1 (.leaf 10592444360061700009051675131011115957950094604443600870000084863702610111157210991059210836000070000673745022101111573031610592108360000800007569525191011119837757105921083600060000089697001210111166669940960444436006340000650231029101111568244809604444360071400006750290301011115612429105920003600777000057693502709011195003611059209636008070000224333028121111878660209742444360000600004371370261611115743275103854443600664002576024502214111159250930974744436007820000775339025140111504055008841444360070400008098450220201119323050041564443600825058173584502208011158023740415644436005400000743239025020111648962405870444360070908797369410241401115836871)
 (.leaf 10592204360087700007443410241401115012362051394443600979000085684102402011160401101059207636000550000690445022090111649161410592558360077700008141430231411115418560105920003600486000056144302314111189534811059205336005170000672362515141111491490210592118360061700006423500201411115779025105922563600605000062906501412111156764641059244436002070000904062515141111597873010592444360022600008929500201011115998962105925183600283000087104502214111158943261059251836003070000888250020141111581144910592108360003300007833675131011119526529105921083600060000088237001210111164738250960444436000260000678943023121111576885809604444360071400008342310291011115979781))
 (.node 1 (.leaf 9604444360071400006724290301211115531388105920003600592000061993902509011158078811059200036004310000731739025120111561742809649444360057600008317450220711119243959092634443600017000031803502710111157207270888644436000070000330239025071111578264308461444360052804758958475210801115971839105924443600307000066754102414111191876440465044436006690000688539025020111598626708467444360050500247116410241401116213630084674443600567002472473702602011162481190473144436009210000722639025020111608340108967444360060100008548430230911115793070105924443600617000090436251514111157772371055144436006860023878343023071111583250610480444360070900008282330280711116243440)
 (.leaf 9664444360051700006826450220901115820227105920223600540000075234502209011162372231059225936007040000809745022141111896919710592053360040000006787625151411114835598078964443600540000062714302314111153239301059200036005670000754847521090111550662910592137360034100008964600161401115765144105921093600901002354785501812111153052671059205636005170579649965014121111920644808170444360078200008944475211211115743616105924443600639000089764502212111195114221059250936007990145879639025141111600712309460444360083900008538390251411115967495105922763600334000084884502209111195284751059256636006050000880145022091111605771810592176360038400008799500201411119646550)))
 (.node 2 (.node 1 (.leaf 10592176360015705797490525191411116090502105921083600021000074246251512111161712111059210836004000000706655018141111570877810592108360002200006789430231011115855560096044443600714000068323102912111158359421059200036006890000602831029091111569795810592000360061700005900330280901115441824105920003600283000030785251912111149908971002144436000600000579455018161111578434609431444360019200006144450221611115795486089434443600450000065094502216111158476250763244436005490473762750020020111671517408660444360071902596012390251211115524795088414443600839000088544302314011157215320884144436008243237900045022140111589118803858444360087109628220330280201115989718)
 (.leaf 6531444360069802588728410241411115854589093124443600714000068083102910111140820840955944436004860000723645022080111970738100000626360010400007084430230801119315266105920353600028000068844502208011160864231059200036007790000644539025090111550238610592145360056700007820450220901119142356105920003600592000068134502209011153955231059200036004860000787145022090111536262710592444360046700007845475210901115479330105920003600431000083155002009011153689831059220036006430000690347521141111576882110592286360064300007629475211401115814375105922863600901163169766001612011156846151059228636008750000771255018120111513319510592256360065600005588575171211115695731))
 (.node 1 (.leaf 8170444360059200006143450221211119215591105924443600400000053935251914111158560661059250936002930000872841024141111618133210592566360070400008778390250911116249421105925663600664000089865751714111158352761059210836000210000904362515141111611858810592108360022600007424625151411115983820096044443600714000080732903009111158307811059244436000140000844355018161111942601608897444360045000006587525191611115404743105334443600576000069664502216111155567271059244436005280000844847521161111591048210375444360048618597401430230801117519889086604443600742014472003702612111157013310538144436006230000805637026020111604531208841444360084900008582330281201115689328)
 (.leaf 9279444360071900228555500201411115111372078904443600828002168354102414011160624520417144436008320000744341024020111647782809660444360068220158288310290511115130692096044443600627201571953302814011196530480958844436005282699855937026090111592028109898444360057639038559370260901116125021087694443600771000075063302810111160647420549544436006343230632239025021111613768505931444360064300216547390250201116458003093024443600601162985576001608111160705210340944436009630000855535027020111590375410592036360042300007742450220801118987766105920363600634000077184502208011156177511059200036006820000760443023090111565449210592000360085800007686475211411119394079))))))))
 (.node 64 (.node 32 (.node 16 (.node 8 (.node 4 (.node 2 (.node 1 (.leaf 10592000360077100007821475210901115809943105920533600307000076604502209011155792330789644436004860000843357517141111578839110592200360048600007795450220901119167783105920003600576000044844102414111159634560946044436004670000878145022090111586585010592485360084500008905410240911119390158105921083600057000088785751714111160372021059210836005280000851635027091111608211109604444360076600006916330280911115822694096044443600714000078372903009111159084291059200036005400000425741024121111509886310592000360060500003177410241211119291542096494443600198000050294102407111163466670964944436006340000876345022071111609000509282444360063400004442500200711119051898)
 (.leaf 9053444360051700005048525191611115569802095344443600247000049815501816111152363800985844436007420000740847521161111928634509749444360079000006966450221611115725728105924443600617000085284502216111155329521053344436006690000809845022161111548937507919444360052800215865450220201115892706097924443600771000080563702614011152767140848344436008780000837931029120111611204507576444360084500207567410241401115127753039134443600875000066754102402011165758191011044436008030000842533028090111571229209508444360068600008518330280901115679149098534443600528155981234102409011158129300355444436006690575671335027140111611632110578444360060100008378330280811115884743))
 (.node 1 (.leaf 9716444360062705758739575171411115712359048054443600953000086553502702011162244330386944436009800000858233028020111546171009496444360041300006758410240801116220200094964443600605000068344752108011157761411059213036006340000642645022080111591051010592000360063400006426450220801119088729105921453600442000077405002009011158399831059200036007770000776652519141111543386407896444360050500008363575170901116500332105920003600486000078894502209011157363091059228636006210000825352519140111588886008170444360066400007235450221211119142439081704443600349000088945501814111157812280817044436008360000510247521141111591683610592000360019200008595575171401115688129)
 (.leaf 10592305360048600008912430230901115850308105925663600853000085393502709111201179231059256636002260000895652519091111909033410592108360057600005982390250911115370846105921083600592000060183702609111159119070960444436007790000804631029091111592567110592000360090400005686350270801116112689105920003600366000076134502208011161489021059200036006860000403135027140111530153710592000360079000004586330281211115924505105926263600486000084414102410111160316850964944436006010000728541024071111922030110592444360034100008317450221611115968274105704443600232000079344502216111161824070863944436005671212899447521120111543748910419444360068622366050390251411119778360)))
 (.node 2 (.node 1 (.leaf 10581444360066407728995500201411115637887065974443600875014285023102912011158628070173744436009970000679639025020111631526608817444360054012088916450221401115815502035544443600849046784513302814011195270880355444436008280000845133028090111630768003554444360069800008439310290901116153964035544443600686000084243102909011160777990355444436006820000849433028091111953740110578444360068200008518330280901115974539097164443600601014089764502210011158900611018844436003340000887143023080111628897708350444360057600006903475210801120003903068684443600540000072974502208011157709031059209936006270000629845022080111609719110592000360046700006058450220801115859933)
 (.leaf 10592215360054904678160450220901115747115105922153600505001983504502209011153869391059200036004861351779545022090111544987610592200360050500007718450220901115272708105922863600486000089865751714011158872101059228636004500000723545022140111940572508170444360080700008671550181411116007393087934443600273000088724502214011158230301059217636007090000901560016091111960894110592176360047700007684525190911115768804105921083600592000071693702609111193561081059210836008450000854637026091111593704410592626360077900008226310290901115949492105920003600623001953763302808011159613501059200036006860000545947521090111572466910592000360077100003133330281411115814567))
 (.node 1 (.leaf 10592444360079000008539475210711115860552105924443600689000084994752116111159789421059244436005760000857345022161111579383808354444360051700007057450220801116044463102134443600669000065344752114111158333530466144436007140000788541024020111704680704078444360085800187978370260201116826411062974443600221000044343902502011197423010629744436008350000834133028020111966047206297444360059205728818450221401116170715035544443600207112184384502214011194230760355444436008030253865337026140111614386803554444360068200008884475210901115836390105920003600605000072354502208011156802861059200036006130000759850020080111535836610592000360061700007789575170801115705458)
 (.leaf 10592078360063408707687450220801115744688105922003600486000075504502209011156417391059228636005050253760147521140111952236810592286360059200007656525191401116044105056974443600605000077665251914011194257940817044436006010000898852519140111923055408170444360057600008977475211201119192801105920003600617000076806001609011156458351059227636007790000902952519141111563333010592176360033400008196525190901115896532105921763600283000088945501809011157081811059210836005920000721937026090111571569810592000360077900008322310290901115964341105920003600839000059003302808011160442371059216236007141851569931029141111958372310592000360069800006931350271001115331290))))
 (.node 4 (.node 2 (.node 1 (.leaf 10592000360061700007154350271001115255643105920003600592000070803502710111157248311059200036007990000811847521071111885261310592444360023200008869500200711119374119105924443600215000084384502216111157858051059244436002320000802045022161111584556408807444360063902536359500201411115853391086384443600878000088834302312111159358340756044436006821796755045022021111600679009070444360068601398780475211401116026459087524443600714001885823302816011155101870556944436007190000522237026020111540770307698444360099900007401430231401115929017053604443601030046586834102414011162855500957144436009410000710635027140111613797404328444360087800008408390250201115947476)
 (.leaf 9604444360062700008518330280901115964083062974443600623013881623902514011161692570355444436008790000852933028090111950058003554444360079300008554330281001119513557035544443600682000089435002010011160557340355444436007140000898560016101111587422406930444360077700008831410240201115787085069304443600877000086853702602011190605190730544436004130000699745022140111614627207384444360077900007074350270201115943389105920003600613000072354502208011161427691059207836005280000711645022080111975879010592444360057600007574450220801115818505105924443600567000076874502208011154841251059228636003840000798447521080111957422808170444360030700006999550180801115665375))
 (.node 1 (.leaf 10592112360062700006999550180901115700652105920003600576000066876001609011158796391059200036006340138703360016090111919630310592276360082400008910575170901116147264105921043600413000089135251908111192017551059200036001640000892852519080111556580910592108360057600007284390250901115868081105921083600845000086993702609011161001571059262636007140000816831029091111944124010592000360080701385820330280201116005433105920003600686000058593502708011158523930834844436005920000574441024080111581320110592000360062700006986330281001118891729105920003600576000071543502710011152397011059200036007770000799743023071111911370008800444360060500007740500200211116307653)
 (.leaf 10592444360086200008477310291201116135256057684443600819025259143902502011156292460390244436005490138533939025020111585933204645444360080700008665450220201116423672084124443600945000065194302314011162604350854044436006820000715435027020111609235403554444360030700005934410240201120014781035544443600824025173913502709011161314860355444436008980000871137026090111629955303542444360095300007396390250201116104857057904443600643000069974502202011196582171059220136005850000708639025020111946119910592000360063900007740500200801119058771105921663600576001674954502214011157755101059221536005170000833045022140111915965210592000360062700007630450221401119141452)))
 (.node 2 (.node 1 (.leaf 9166444360078200008180450221401115789427081704443600186000064835002008011191566061059211236006170000690347521080111970199610592062360061300006972500200801115858695105921043600505000078725251908111158437121059200036000210000897557517080111519956810592000360002100008940575170801118761742105920003600467000076304502208011157695671059210836004670000755045022090111935629710592108360047700007909450220901115736330105921083600528000077144302309011192188541059200036007930000862835027091111619880310592000360064300005186330280201119418489086174443600450000071474302312111158610211059200036006820000550737026101111532808210592000360079900008548430230711119152939)
 (.leaf 10592444360058500008851500200711119676689105924443600232000084384502216111163592741059244436004500000784452519140111587520707212444360066900006813450221401119471074103724443600558001678425501814011161100820761344436006390016468639025140111604410309604444360068600005305330280201116144692096044443600682000051863302802011160972830355444436007790000361537026020111588863903554444360089800008685370260801115797811049374443600467000068354102414011155547790493744436000000000741745022020111668363404415444360062300006944330280201119830734076494443600592000077174752102011193446030740344436006980000689237026020111590086810592335360068903587322410240201115858809))
 (.node 1 (.leaf 10592002360080700007931575171401115479167096984443600549056873545251914011159900351059200036001700000671143023080111929010910592000360028300007174450220801115938679105920003600576000074954502208011158420381059200036004670000771845022080111921397110592000360014400007871450220801115787168105921043600467000079284502208111155367261059200036004670000766045022080111595053110592108360036600008854430230911119362229105920003600742000084793302809111159779901059200036007090000534531029020111592443408348444360060100004264390250801115298402105920003600592000058593502710011193903511059200036006390000814735027071111561142810592444360022100008872450220711115866997)
 (.leaf 10592444360023200008548430230711115916310105924443600232000084164302316111194048140881144436002260358791155018140111725433209553444360062700007520475211401115943307099594443600782000073523902514011160607041024944436008320136821645022140111627425510018444360083500158780475211401115943704086244443600664025066754102414011162241000486744436005170000756741024020111575750203554444360069800008206350270901116062934035544443600467000059373102902011159549550493744436004670000580829030020111593650910592002360064300007714525191401119027497098234443600634000076604502214011194035750789644436008650000752345022140111966891610592215360062100007964450221401115555237)))))
 (.node 8 (.node 4 (.node 2 (.node 1 (.leaf 10592444360058500007572475211401119187681105924443600836000089864502214011158619921021644436004500000903157517140111570081209698444360050500007711575170201116082556078494443600601035688665501808011198612920910544436004860000889643023140111592194809105444360050500008986450221401119434107056974443600742000060494302308011157241220817044436006690000575543023080111606285910592298360051700007358450220801119003200105922983600585000070373502708011192966641059210436004670000811945022081111557851910592058360046700007872475210801119349726105920003600442000082785002008011153242571059200036004670000829845022080111585822210592108360046700007844450220901119206401)
 (.leaf 10592000360066900005248310290201115752759083484443600799000047953702608011157334140827644436006010000654739025141111930605210592000360078200008357430230711115891552105920003600799000074483102907111159646311059200036006560000858847521071111940273210592444360068200008799500200711115956460080394443600221279877655501814011154793160638444436008650000817947521140111631316707613444360063900008869500201401119533204035544443600742000082063502709011161098090355444436004770000649737026020111977213103554444360046700005820330280201116258195059704443600634000065743302802011158682130550844436004130000901655018020111623911006968444360062700007656525190201119631613))
 (.node 1 (.leaf 6814444360080700007495450221401115920511068144443600836000071164502214011157821380646144436008070000891243023020111635075909105444360048611998846410241401119724115105922613600467000069394502208011195994531059212036005670000705535027080111570925310592028360054900007438475210801115752297105920283600467000075504502208011156579241059200036004670000657247521080111577430410592058360046700007893525190801115273334105920003600431000084145501808011159120281059212636004670000794950020080111590672510592126360046700007971475210801119380763105921083600467000078714502209011156872281059262636008710000881441024090111930989010592000360047700005615370261401115844239)
 (.leaf 10592000360030700006711430230811119147413105920003600617000080804302310011195031411059200036004860000838345022071111606730310592444360023200008988500200711116085972105924443600164000090004502216111159451780648744436006560000717445022140111610091909551444360068200007574450221401115874530081264443600782095077213702614011162533620641544436006860000679041024020111615427204803444360069800007786410240201116356896000004443600477035485233702602011165837340960444436001570000523341024020111936461809604444360078200003180350271001115356636035544443600832000090184752110011158795750355444436004770000854637026100111572345100000466360005700006966450220201115986375)))
 (.node 2 (.node 1 (.leaf 6489444360063900008727370260201116268087105923353600643000077915501802011199485621059244436007660000760147521140111593193710592444360066400007768475211401115839513093824443600709056576584752102011157768350739744436006170000749052519020111588865809698444360043109479030550181401117255960091054443600505000081524302302011162698931059226136005920000749545022080111949606810592444360047700007630450220801115509006105924443600601000073584502208011160318171059229736004860000687231029080111892231310592102360046700007714525190801119269299105920003600486000083314752108011159944471059210836004670000681345022090111576543710592108360069800007000410240901119407899)
 (.leaf 10592000360074200008304330281011115974631105920003600366000060903902508011159431211059200036004770000804941024071111548825710592444360062300009014500200711116157525105924443600232000089955002007111161125161059244436000220000902450020161111598424504915444360068917346062370260201116053207081724443600698119884043502714011160143670401044436009350000852641024020111530385804978444360071900007567410240201116352864060104443600467000070893502702011161024550355444436005920000879639025090111947249503554444360059200008809390250901115968753035544443600517000084913502710011160644050355444436004670000561131029020111944232806930444360046700006510450220201115572084))
 (.node 1 (.leaf 6930444360017000006961550181001120226492027704443600116000073934752102011158278180656344436002570000900747521020111627258808631444360023200007396390250201115705214066334443600623035378725251902011161278331059244436006560000787252519140111588016510592444360055801327845475211411115017799105924443600682000070793302814111144439170777244436007790132881441024020111677988810592444360066900009032600161401116021665105922613600486000069394502208011196929961059212436000210000892460016080111519425910592252360051700007753410240801115654550105921083600467000069394502208011193265241059210836004670000705745022080111581027610592108360046700006641450220801115766237)
 (.leaf 10592000360071400008504350271011116188154105926263600803000085143702610111194118520840644436006390000470139025101111597567810592000360032200005054430231011116015057105920003600283000087814502216111157016880495044436006691841818737026020111668831807315444360076622648333350271401116581167050194443600656000057444102402011157398010423444436005580000552241024020111596922706142444360066900006996410240201116643402048184443600682000080494102402011163757470432544436007930000832541024020111594843303018444360006037724042430230201119441781035544443600790000044883502709011196770690355444436005920000876139025090111608011903554444360047700008498370261001115516342))))
 (.node 4 (.node 2 (.node 1 (.leaf 3554444360040000005552330280201120656522069304443600467000062173502702011194459500760844436002150000889552519020111627050306610444360050500006981330280201115868131075864443600467000063212503202011157217940691944436005400000799255018020111586184605954444360068600007768475210201116201823105924443600656086079125251914011157088820737044436002210000889945022020111613275906802444360045001318726475210201116388572105924443600698000089865751714011158528510500744436008450000887047521020111595800106959444360046700006939450220201120036996105922613600467000075744502202011158602360782744436004770000712235027080111584498310592297360048600006809290300801119101876)
 (.leaf 9604444360036600008094525190801119792833105920003600467000073453102908011195214431059200036004670000713831029080111919706010592108360060100008538390250901116047383105920003600283000051734502210111158154890992944436006050000578441024141111584941309929444360000900008020450220711115748049105920003600431000062074502207111194035061059200036002470000876345022071111950859510592000360032200008781450220711115644221065384443600656056171133902502011200507790367944436009980860872943023020111629159604255444360068200005920410240201116029722035544443600467000087783902510011155853880355444436006210000640443023020111982726200000444360022600005479350270201119744541))
 (.node 1 (.leaf 6930444360034100006499350270201115988457087934443600467000064453902510011160237200879344436002150000659637026101111616866010592444360060500006785350270201115840125071264443600558000070893502702011158568970563844436004670000652925032020111532736307076444360047700006779270310201116011403081154443600186000080145751702011161424910576744436004500000743355018020111560337805056444360041309466289550180201115828261078274443600467000075264302302011158604381059212436000210000887760016020111886941504720444360046700007400310290801119700986105920003600467000071063102902011156712041059200036004670000593731029080111922391210592108360046700006483410240801119674152)
 (.leaf 10592000360038400004408450221011115951664093404443600639000049213902510111159040621059200036005760000788433028101111575705810592444360045000006143450220711116015714105923023600656000087814502207111159445591059244436001360000904157517071111985261305031444360061303517444430230201116282967045444443600540000084994752102011161521320335944436006640000679041024020112010107605104444360068200008416430230201115775035052654443600682000080494102402011163273750534344436008720000830631029020111629963703018444360030700006115410241401119766251035544443600742000077633502709011196070970355444436006560000860435027090111966448803554444360046700008577370261001119235993)))
 (.node 2 (.node 1 (.leaf 3554444360047700008625370260201116157774035544443600467000053763302802011195950120355444436004670000590033028020111584847505697444360050500007443410241001119283259056974443600540000088695002010011156570220743744436005280000683231029020111575702706535444360046700006546270310201115642614068144443600467056077954502202011156667510472044436004670000749331029080111591049904720444360046700007619310290801115955127047204443600467000073873102902011190920601059200036004670129602831029080111595909909929444360006400005381430230711115942757105924443600576000079783702610111154450800578544436007140000767741024020111600098505506444360078221308711410240201116646395)
 (.leaf 7783444360085830047764430231401116086755024424443600682000073533902502011165532250353444436006690000720141024020111648782405636444360077100007917290300201116455363035544443600467000086403702610011159851970355444436004670000869937026020111610540003554444360063400007190350270201119659766035544443600467000056863502702011196788600569744436001570000668537026020111600698902770444360023200007202430230201116174025027704443600226000076024502202011162154620743744436005850000699037026020111626223406535444360060100007226390250201115856245065354443600467000066242703102011156906711059244436004670000622325032020111612942105824444360062700008944475210201115833627))
 (.node 1 (.leaf 6625444360046700007057450220201116474435105924103600467000082804502202011157186420892544436004670000766045022020111597225304720444360002700009036600160201119126534047204443600477000088403902502011152568161059200036004670241709231029020111550494010592000360046700006906310290201119236611105920003600486000057933702608011160209110960444436007090000666947521090111559057310592444360043100005864450221011116100805039714443600486000063614302302011157570650508144436005580000478041024020111599147804431444360093300078548430230201116037906024424443600682000068853902502011202738770602544436008700000852835027020111693327405980444360048600005500270310201116481212)
 (.leaf 5125444360025700005440450220201119573653035544443600528000081873702602011199931190000044436008250000724435027020111627889303554444360047700007090430230201115998353087934443600322000067133502702011156603000743744436005670000711437026020111582469606535444360044200006832310290201115775033056354443600921000088253902502011166063660799744436004670000788945022020111600586404720444360059200009038575170201119259062047204443600486000090004502202011158642240472044436004860000900045022020111889307604720444360046700007023310290201115897780105920003600467000668513102902011158984881059200036005170000690141024080111958353809604444360079900006972500200901115799814))))))
 (.node 16 (.node 8 (.node 4 (.node 2 (.node 1 (.leaf 10592626360054000005864450221011115768727093404443600528000055854752107111158159340934044436000280000548841024071111935291110592444360023200008488450220711115815478105924443600148000085665251907111156611731059230236006390000614341024101111961339310592444360000900008929500201011115614745057174443600790024066754102402011160988860708144436009461336795241024140111584285006940444360059200008869500200201116431395039464443600682000085973902502011159016110531844436006340000728541024020111586963403018444360014400005440410240901119342546006974443600617000084713702602011160971310355444436004670000867037026020111615151500000444360048600007037350270201115975869)
 (.leaf 3554444360046700006276370260201116076733096044443600366000062663302802011192458720879344436004130000749843023100111581026602770444360054000007523450220201115673804074374443600486000071063502702011192313071059244436004670000683231029020111913779605855444360047700007400410240201116204442105920003600467000072453902502011154030191059207936004670000771845022020111566582704720444360089000009006450220201119564520047204443600477000079203502702011191338890472044436004670452694531029020111578214010592444360034900005829430230711115872129105924443600540000057234102410111157566121059244436006050000623843023101111590291904991444360079300007206390250201119365522))
 (.node 1 (.leaf 3053444360070402397781500200201115939767039464443600682000080163902502011162501330531844436006010000781643023020111577139004107444360042300004686390250901116361892006974443600592000085143702602011198932150069744436004670000864037026020111607504901403444360047700008761390250201115809832035544443600486000086193902502011198942970457544436000280000760443023020111568257604575444360002100007687450220201115873992000004443600467000061573302802011198364440355444436004420000662935027020111573085402770444360043100007235450220201119450572074374443600170000072063902502011156975521059205136005170000737939025140111575290810592322360051700007738430230201119138182)
 (.leaf 10592332360046700007076310290201115680775105923323600467000070923102902011160766451059232336004670000685131029020111929271805855444360055800009009525190201116619335071634443600467000077424502202011161112561059207936005170000791252519020111567599004720444360066400009027575170201115693403000004843600921000090335251902011159539520472044436004860000901245022020111543402604720444360046700006993310290201116238911047204443600467000069213102902011194260010472044436005170000621735027140111631424110592000360046700007417450221401115433439105926263600567000077184502210111156954860834844436000320000410945022100111582769608348444360064300004636410241011116035410)))
 (.node 2 (.node 1 (.leaf 4991444360089000008939430230201116418380053514443600819212887484302302011163394260394644436006820000858539025020111588937505318444360068200008223390250201119450600058614443600682000073533902502011163445300617844436006560000874843023020111626996907665444360084400008322310291401116316519034934443600937000086834102402011163000000069744436004000000760837026020112013930700697444360052800008585390251401115881959004204443600486000079104752102011157484240000044436006170000682937026020111608689905783444360047700007184370260201115693803096044443600413000089314502202011163629430960444436005050000789147521020111951618209604444360047700007226390250201120233829)
 (.leaf 8793444360024700007160350270201119122993087934443600467000069933102902011154640261059205136005170000757543023020111576424410592323360046700006906310290201119707144067784443600467000074105002002011162554250472044436004860000901745022020111491519009604444360047700006997450221401115423028105920003600467000074214302308011190838120834844436000060000544045022100111583069210592444360024700004744450220711115839609105924443600450000084164302307111158647160479144436005920345603241024020111652890502062444360106600009012450220201120842668047954443600938000089646001602011154498830551744436009110237895750020020111603237401957444360068201248262410240201116460571))
 (.node 1 (.leaf 5533444360068200008016390250201116386040055334443600623000085964302302011162043690499644436006390000788541024020111575101404016444360086700004283450220201116138154000004443600192000084083902502011203010540069744436004770000872841024020111613424901403444360038400007498430230201116031929004204443600467000073523502702011157671930244544436002570000699745022020111602677709604444360047700007169370260201116168053096044443600477000087634102402011200496920960444436004670000700631029020111922941607541444360036600006574330280201115929448105920003600467000069643102902011158109040447544436009470000874437026020111633153410592000360054900007417450220201115876249)
 (.leaf 10592000360046703447420410240201119603091105920003600467000073444102402011158010971059200036004670000752041024020111531098004720444360077100008966550180201119110027047204443600643000090035501802011194335870472044436006820000901745022020111569023504720444360048600009051675130201114948899047204443600467000068083102902011159045790472044436004670000650231029020111598076910592000360064300006542450221401115513013033094443600888000069034752114011158909041059244436004230000673745022071111578414400444444360084634988987475210201116120788052134443600617000086684102402011164236600521344436006690000791443023020111626027205533444360068200007036390250201116102004))))
 (.node 4 (.node 2 (.node 1 (.leaf 5533444360068200007454410240201119893687073744443600477000088184502202011159420950685844436006390000863339025020111654030506325444360064300006115410241401116227539102954443600828000080463102914111161416500000058436001860000474445022020111585837400000444360006000008441410240201120192360006974443600486000082144752102011162213700244544436000200000752643023020111576743302445444360048600007602450220201115870631024454443600486000076874502202011163336520879344436004670000692131029020111586859710592000360046700006808310290201115292363105923323600467000070553502702011156607890628144436005400000771747521020112018984107087444360061300007235450220201115998394)
 (.leaf 10592444360063400008385475210201115522655047204443600643000090174502202011152259540472044436005170000902347521020111495038704720444360046700007324310290201119904050047204443600467000068323102902011158726260960444436005050000705745022140111581375903309444360051700006049430231401115472331085074443600366000065194302310111165738050441944436006131727852641024020111617610700000444360105900008920410240201115088727039544443600971000075985002002011157502120522144436006820000785339025020111655159906958444360071400008325410241401116103958000005843600848299944164302302011193865120000044436001360000838841024020111995661002445444360036600007281350270201119386182))
 (.node 1 (.leaf 444360048600007947450220201115913020096044443600540000090174502202011198839110960444436004770000719035027020111569989107287444360046700006906310290201115821673033724443600844000090174502202011158221280509844436008650000898143023020111599144310592048360055800007321430230201115864112038244443600576000090025751702011158130700140344436004670000690631029020111605707904720444360061300006798330280201115897706033094443600413055473214302314011158395991059244436002730000900045022101111593371800453444360105800008764430230201116285829052134443600643126783553902502011166009840522144436006820000743239025020111634217906878444360055800008915475210201116023003)
 (.leaf 10395444360083504507448310291611115428421075644443600904000065424502202011199851570000044436000020000696645022020111632930500697444360048600008977475210201120085104006974443600221000078214752102011169001640000046536004860000896847521020111652096002445444360048600009018475210201116303832024454443600567000090234752102011169826750843944436004860000729835027020111582198710308444360095700008744370260901115675448092444443600875000089204102402011159766040813844436008960000884039025020111577723708501444360094500008744370260201116905439080634443600714045090174502202011161575951059200036005490000760245022020111615352801403444360093500006199390250201116012042)))
 (.node 2 (.node 1 (.leaf 3309444360062100005262500201411115889856033094443600431000071474302314111155091620817544436005490000519647521101111593323110369444360082501236884450220901115943586103694443600283000088724502207111157321651059244436002830000901745022101111575609004352444360089000005949430230201116127296014374443601096000089624302302011158808260369044436009880000888545022020111628050905213444360058500006948410240201116510425052214443600643000088374302302011200711350456544436006563885584141024021111569312804324444360076600007681410240201115580317048064443600627000059143902502011154818880000056236008450124381145022100111589439500000444360046700008554330280201115955201)
 (.leaf 444360054000008981430230201116174045000004443600486000086553502702011160928501059222536003570000901847521020111598801102445444360048600007929475210201115973294096044443600601000090234752102011199586500960444436008280000898143023020111615021608439444360048600007334350270201119455469056974443600486000072813502702011189630100571644436009710000865535027020111522161710592000360046700007574450220201116239673105920003600477000074954502202011201614051059204836002470000892460016140111578411604720444360048600009009525190201119685182014034443600928012459143902502011159476720960444436002150000511443023020111591748403309444360047700007297450220901115112776))
 (.node 1 (.leaf 10592191360063900007030430230901119433658083834443600366000052764752110111160541750952844436006050000553043023101111946159410369444360028300008931450220711115878953105924443600283000090295251914111160832330459844436005400000648341024020111629897803013444360094400008646390250201115795997061624443600247075573705501802011201302840697344436006050000776847521020112015816305018444360019200009034675130201116060197053594443600357000090506751302011157696690522144436005920000872943023020111610137204293444360068200004997410240201115594038028814443600867000070504302302011164090270756444436006230125588837026140111967942500000444360048600008642350270201119723469)
 (.leaf 444360048600008840390250201116138066006974443600486000086133702602011159862130960444436004860000902347521020111630813006281444360062300008783430230201116086695097944443600540000090134752114011158505970794744436002470000759455018020111588992102445444360046700008972650141401119126748047204443600742000089516251514011155348920140344436004670000748835027020111614912601403444360087000005976370260201119360941064204443600862000034214102414011194804790330944436005050000749545022140111593010510369444360013400005648450220911119273647103694443600283000087634502210111157514021059244436003070000900352519141111601740801913444360093400008655350270201116203197)))))
 (.node 8 (.node 4 (.node 2 (.node 1 (.leaf 6181444360059200007379390250201116093346080544443600450000090014752102011160582140662844436006270000878041024020111636652904574444360057600004744450220201115949772007424443601005000088714302302011171632660327344436007790000863543023020111664507000000444360114100008967450220201116810297066194443600592000084773502702011160539550968944436008320000535331029121111601765607564444360038400005586350271201115963035000005623600613000086703702602011160293570569744436004860000855535027020111881638607148444360048600009018475210201116076706046374443600779000589874752102011156543420995144436009500005892041024160111462226310592000360028300007805525190201116571113)
 (.leaf 10592048360023200007711575170201115904245047204443600486000090516751302011153766150472044436004860000905067513020111883973804720444360048600009042675130201118652553047204443600486000090506751302011150082110472044436004860000899067513020111890388701403444360046700006157330280201116371479105920733600585000053143502714011159299930330944436002150000767741024141111929229410592224360068900004797410240911115567449105924443600334000090415751714111145555970459844436006640000868443023020111599635005632444360083600008809390250201115942261009694443600872000089685002002011157784050483444436009840000895745022020111592526906777444360038400008895525190201119231593))
 (.node 1 (.leaf 5221444360089600008976450220201119669821046424443600682000069014102402011162695850478544436006230000743239025020111691442204026444360100400008820430230201116286685047024443600623000082953902502011166794380539144436005670000840435027020111591651905854444360018600007154350270201115884187000004753600585154238364102410011158333190000056236004860000838835027020111979194900000444360070400008920410240201115905207000004443600689000089204102402011192074240000044436004860000884039025020111593395300000444360048600008655350270201116290448000004443600621000090234752102011161125460000044436004860000902347521020111610619009604444360048600009023475210201119319925)
 (.leaf 6281444360048600008976450220201115541245062814443600540000087994102402011160487810628144436004860000858435027020111573084208242444360050500009015525191401119430018082984443600803012790095251909011161285640993444436006230006900860016091111541688807897444360071400009006450220201114693684105924443600486000080834102402011198815210681544436004670000752345022020111586676501228444360050500008953600161401115829457047204443600486000090516751302011151899670472044436004860000899067513020111872582101403444360068600005888370260201116540718033094443600779000049704302314111153536670838344436007790000465143023101111959991609528444360048600006835410241001115816339)))
 (.node 2 (.node 1 (.leaf 10592444360028300008619390250711115803657056324443600832000086053902502011161101180312844436010130000885443023020111609198104322444360108300008957450220201115904192065914443600639000087994102402011160068660483744436005580000591439025020111593233504479444360091900008568410240201116197559040594443600930000087124302302011166426950774544436001041991473743023141111625081500000562360048600008825390250201116096534000004443600517000089814302302011196140320000044436005170000902347521020111593422700000444360060100009023475210201115956773062814443600486000087423902502011158394500628144436004860000861835027020111944641807148444360048600008987475210201115719233)
 (.leaf 10023444360050500077202430230901115941004099574443600627024189574502209011157417330681544436004670000717445022020111585624505273444360038400008275550180201119545247014034443600467000088314102402011190877840140344436005670000668537026021111617168106420444360046700005888370260801115930904105920733600400000076855002008011158202661059207336004000000774050020141111545503603309444360048600006675410241411115484025087844443600698000077864102410111158934811059200036006270758640443023100111550536109528444360028300005251450221011115859813035524443600766000086984302302011158696230003144436010820000901745022020111579963606484444360079300008646390250201115821881))
 (.node 1 (.leaf 5903444360068233334463390250201116214227050844443600601000067894302302011155931870459044436007090000852641024020111533677701487444360098400008635430230201115999553012854443600828000086074102402011167949510970844436005760242686243023091111622047900000475360002600005456430230201119207281056974443600613000090014752102011160402920569744436004860000887641024020111568317806281444360048600008628350270201115610092062814443600477000072443502702011196193380714844436004860000790945022020111588568207148444360048600007738430230201115714476071484443600486000078714502202011156748571059200036004770350889643023090111583221509102444360059200087385410240911115758223)
 (.leaf 9785444360040000007899625151401115773242047204443600486000090346751314011153974881059207336005581191823443023020111537355910592073360046700006640390250801119599512084624443600601000084164302309111194756750846244436008030000853839025071111592465909968444360028300005788450221011116011337056324443600779000070004102402011159859770563244436007790000871141024020111596726204909444360066400005440410240201115734362018274443600971000085533902502011163463230462844436006890000694637026020111585064802939444360084800006966450220201116082637012854443600862000058844752102011157553450958344436003840130574657517071111574295407941444360002600003087430230811115942197))))
 (.node 4 (.node 2 (.node 1 (.leaf 475360018300006543410240201116093447000005623600505000090174502202011201271770023844436004860000865535027020111589188000000444360055800008920410240201116831479056974443600714000089674502202011160555501059215336004860000892643023020111557924910592153360048600008666390250901119020243105921743600486000086834102409011156993141059200036006010000894447521090111598380010592365360068200005738370260911115836026099804443600144024369974502209011162036820750644436005400000898657517020111512434805273444360047700007952410240801115878031105920733600486000971533702602011157315210846244436004770130479741024091111592462908761444360042300006269475211011115907139)
 (.leaf 9968444360060100005000390251011115845217056324443600605000088544302314011196826451059244436001700000902655018140111599580400890444360110200008763450220201115816374012324443600341000049234752102011157506581006544436008070000482237026141111966112300000562360061700008920410240201116177143050754443600486000088403902502011159332640000044436004860000901347521020111911072210592444360046700006872310290201115781146105920953600477000070603302802011157757301059200036004770000710635027020111966281910592000360029300008666390250901119898793105920003600021024483295251909011159623021006144436003341196902760016140111572609807337444360051700007964450220201119345942))
 (.node 1 (.leaf 4720444360014400008951625151401115759537047204443600144000089846251514011157610051059244436001700000877162515080111517778710592444360014400008973625150801115178903105924443600322161088665501808011151781311059207336005580244823443023080111570902110592073360084900007271390250801115870203105920733600517000068344752109011158165100937844436002830000623150020091111544083708711444360029300005759500201011115666638099834443600714000082965002014111159600951059244436005490000901450020140111669976800229444360114100008976450220201116718896004354443601122000089674502202011159890220000044436010690000880343023020111636717600000444360104700008748430230201116536005)
 (.leaf 469444360098400008684430230201117405796032244443600621000061714752102011161684470000044436005850000897143023020111716596800000444360048600008920410240201119201704016604443600486000089814302302011160193870000044436004860000901745022020111918824500000444360048600008952430230201115760398056974443600643000088854502202011203079130569744436004860000797147521020111917803110592444360046700006832310290201115913227105924443600467000069643102902011194732951059200036004670000688931029020111582712810592000360046700006930310290201119307539105924443600467000068893102902011192816531059200036004230000891155018090111574236110592000360034900008943500200901115816936)))
 (.node 2 (.node 1 (.leaf 10592000360060501326095430230911119368287105923503600505000054573902509111159046100733744436004000000888250020020111570205110592444360048600008970675130201115034526105924443600486000089986751308011151756811059207336005280664730541024080111551777810592604360045000008895525190811115385822084624443600517000051964752109011155614790846244436005170000569050020091111556535110592512360051700005835500200911119469405086764443600293000058355002009111155476500989244436006210000746943023140111604057509990444360059215497359390251401115996538012324443601049000088374302302011162430660567844436007900000745441024020111639331404622444360071400004816430230201115507295)
 (.leaf 3224444360088800005251450220201119853322100654443600136000089726501407111160221730000047536001700000440041024101111541085300000562360062300007542390250201119398491000006223600486000086853702602011194945970000044436004860000889041024020111614526700000444360054000009013475210201116318613056974443600431000077294102402011157416430960444436004670000696431029020111572832210592000360055800008729430230901115745853105926263600024000082515501809111157197041059249536006340000583339025091111954466609561444360063900008916450220911119046215103924443600621001274204102409111159428760978544436004670000749539025140111641605710592189360052800007889575170201115236170))
 (.node 1 (.leaf 10592444360048600007823650140801115471900047204443600558000089124302308011150249281059207336003220000544045022081111950987807741444360051700005709525190911119350100082614443600567000051734502209111157999930945944436008370000878047521090111669013104605444360068900007661350270201115509135105924443600627000084913502714011161391670462244436006010000849837026020111629994703452444360083600006361430230201115851286039794443600400000059513702602011155897130508944436006820000809845022020111607204310592444360001800009038675131611115778989000004753600450000079783702602011192416980000044436005850000902347521020111684394900238444360048600008539350270201115623472)
 (.leaf 420444360048600008504350270201119109355016604443600486000088844752102011159206140395944436004860000874437026020111926909805697444360048600008430475210201117171432105921443600467000069643102902011157726151059214436003410000606633028090111611314310592000360046700008600500200901115872899105920003600273000086225501809011156451461059200036000550013771452519090111580073210592121360066400005606390250911119569611100554443600682000073054102409111159889671059244436001440000870852519080111590198810592444360014400007900625150801115690710105920733600467000071903502708011192020841059207336004670000485831029080111909455310592073360051700006089475210901115920946)))))))
 (.node 32 (.node 16 (.node 8 (.node 4 (.node 2 (.node 1 (.leaf 10592549360051700005276475210911119244885070164443600601393384513302812011157342001059244436007142513887641024120111569310900357444360114100009017450220201116491743054204443600567000086553502702011163843200567844436005490000862835027020111993674104761444360062700007187390250201119671557047614443600307000065433702602011196569030370344436008360000558547521020111580836404482444360077700007681410240201115665203105924443600019000090056751316111160633610895944436000690000556545022101111551560400000562360068900007124330280201116027354051254443600486000086423502702011157976040000044436004860000901347521020111947462909604444360044200007079330280201115738616)
 (.leaf 9604444360046700006832310290201115643966105922963600467000068723102902011159680521059200036004310000858455018090111527460210592000360022100007490525190911115605221084394443600605000070604102409011161083070869744436001040000582943023091111920696110592444360018300008910575171411115306735098784443600467000076354102408011159189580978544436002730000809452519080111527837710592444360020700007214575170801115272344105920733600467000070553502708011191840041059207336005670000448835027080111547484610592604360070400006669475210811115744637086074443600517000063294752109011190356591059240336006270000636445022141111608284710507444360071421828897500201411115881700))
 (.node 1 (.leaf 9750444360080700007271390251201116116362105924443600682387582203302812011155302810370344436002260000595137026020111576057903703444360086500006144450220201116169976013014443600870000056624502202011160980340316544436008580000773145022020111639734208795444360000300004257450221011115455538000005623600057000074804302302011159270040000044436006210000830229030020111595848706815444360048600008655350270201116085466045534443600486000086043502702011192132150395944436004860000865535027020111947200700000444360048600009023475210201115940905024454443600486000083104302302011161556850569744436003570000749541024020111589869810592444360038400007385430230901115848617)
 (.leaf 5125444360010000008864600160901115496825105921493600341000072284102409111158743811059244436006820000596341024091111604938810592444360014400008894550180801115843607105924443600144000073805501808011153231621059207336004230015539935027080111547278608607444360060100008152430230901119404503105922123600517000050084752109111154645341059240336005670000898747521090111957469906600444360068212767809370261401116420147048694443600944344276814102402011160301160424444436006983431816929030140111590844002858444360093400008825390250201116854820058444443600517000084613502702011206906510215044436008580000595845022020111565379208872444360000500004408450220711115430560)))
 (.node 2 (.node 1 (.leaf 5226444360048600008642350270201115972897045534443600486000086793902502011156663240244544436005050000900747521020111642098000000444360050500009013475210201115995896024454443600486000084424502202011163029840244544436004860000824341024020111612190909604444360046700006808310290201115689881096044443600467000068723102902011158758941059228136003220000773843023020111590148910592603360046701377894525190901115811997105922683600207000075965251909111155063171059262636003490000746943023091111574708810592032360013600006089475210911119285518105924443600400013789765501814011157007820959044436006130000731441024080111587155210592444360014400008078625150801115819336)
 (.leaf 10592444360046700006832310290801115826734105920733600467000065043102908011196821260948644436003663715675841024120111597470408239444360089822287010475211201115718365038254443601023000090174502202011166244030584444436005580000870939025020111606393004541444360079000008640370260201116317308017874443601001000089054102402011173350740413444436008350000778641024020111654790103670444360083700007090430230201116161835000004443600714000081873702602011164763530681544436005050000882539025020111951580804553444360048600008711370260201119125139024454443600486000090184752102011157943600000044436004860000900747521020111603764606190444360047700007294370260201115896765))
 (.node 1 (.leaf 6190444360002100008308625150201116220330000005013600186000077284102402011158029081059244436004670000694531029020111607144310592444360046700006964310290201119920294105922963600621000074444302302011157487031059244436001480000776260016090111579937610592159360002100008308625150901115837746105926033600528000057844102409111194378040414444436005850000583339025091111940190704144444360044200005858410240911115932170041444443600366000056484502209111156949920989144436006340000520141024091111593264209358444360046700007282430230801115855072105924443600221000071815251908011158371490472044436004860000683367513080111893890710592073360019200006712525190801119229935)
 (.leaf 8607444360051700005739475210911115859578061904443600639000083254102408011159718880991644436005050000888152519091111952864200000444360113200009017450220201115731821025364443600984000089204102402011167712850592744436009790000900045022020112206851204424444360062700008498370260201116554317000004443600486000089164502202011159789770323444436005050000884039025020111961867102445444360051700009019500200201119844760024454443600477000073523502702011163685300244544436002150000811945022020111573442502445444360001100008051550180201119415725105922813600486000075524302302011158747910439744436005170000779350020090111552238810592080360033400008094525190901119028351))))
 (.node 4 (.node 2 (.node 1 (.leaf 10592000360019200008250575170911115194731041444443600198000086115251909111157341721009944436004420000687139025140111631787909643444360041300007168450220801115927068087464443600431000076354502208011158828181059244436007090000797650020080111574049810592444360014400008303625150801115456353105921893600477000061424302308011156345741059244436004770000673745022080111570852510592073360050500006892370260801115975238105920733600334000067663902508011194186051059260436004500000814045022080111913581208607444360052800007235450220901115710478105922123600576000057884502209011157344760989744436002150000867847521161111546789007521444360001500002726450221011115419227)
 (.leaf 444360048600007859390250201120299604054544443600639000088144102402011163497380402444436005760000888545022020111593034104397444360068200008725390250201115888972061904443600442000069293302802011161444600619044436001040000823352519020111566639010592003360005700008230575170901115502896105922683600467000062074502209111158412210414444436006170000598239025071111580468910592444360014800007797625150801115517500105924443600467000063223902508011158148221059207336004420000709335027080111603578510592073360046701408057475210801115823718105920733600477000074014302309011160500550619044436007420000664145022080111598648410338444360034900007627500200911119299853))
 (.node 1 (.leaf 7770444360091500008840390250801116595814090564443600585000087443702602011159785640284144436004672146667541024020111590648807843444360010400004597475211611115445983000004753600000000082414502210011152965750000056236000000000348945022100111540272700000444360055800008220330280201116791971041594443600528000089444752102011160729310323444436006430000842431029020111574431003023444360047700007106350270201116042951061904443600505000068723102902011160590430244544436004670000688931029020111590541902445444360046700006929330280201115869447105922963600517000070373502702011194336841059229636005580000896850020020111927194804397444360068200008914500200901115597964)
 (.leaf 4397444360054000007495410240901115789618105921553600148000078796001609011153011691059200036002210000827357517090111534018210592203360041300006302475210911115776411105920003600021000089536001609111191951851044744436005050000691633028090111608000510592444360068213546609250321401115581080105924443600576000078855002008011161682251059244436003570000896362515080111531685810592073360047700007710430230801115698753105920733600467000080903902508011159028281059207336005400000704847521080111549936910592073360056700007629475210801119148592105920003600232002069484102409011153972221059205236006640000796252519080111950396910592052360045000008924600160901116019074)))
 (.node 2 (.node 1 (.leaf 9525444360023200007455350271411116023855030974443600845000069664502202011167167150860544436000190000500847521161111511375000000444360060500007506330280201117109134000004443600601000088034302302011159114860403444436005050000881441024020111582079104985444360076600008864410240201119362045049854443600742000076214102402011162728210569744436004000000714135027020111596505502445444360046700007006330280201115950693105924443600549000070593102909011158921450619044436004670000687231029020111618649406190444360046700006872310290201115816777105920003600621000072644302309011159176420439744436006390000894445022090111571297410592203360055800008970675130911115678176)
 (.leaf 8746444360032200007225525190801115690994087464443600442000088524752108011159897831059244436001640000779762515080111912792210592189360034100008303625150801115318721105921893600467000084346251508011153059261059218936004670000837462515080111522230110592189360046700005611310290801115480968105920733600467000078543502708011193571301059207336004670000743847521080111965726910592081360027300006903475210811115909554105920003600617000084125002008011158809791021844436003410000779155018081111933082009589444360013600008062500200901115780822091314443600656000079353502709011161937240879044436002730000874239025141111656319405100444360015700007569410240201116387235))
 (.node 1 (.leaf 7833444360000500002835450221011115245885040344443600486000085593702602011201177720545444436005400000895750020020111948426505836444360057600008780410240201115843260049854443600682000087093902502011195751401020644436003490000768355018020111568514210592000360063400008180450220201115748037043974443600592000086333902502011156900540322944436004420000749539025090111592570203229444360035700008387550180901115567670105920003600307000088145251909011158861781059220336004420000552439025091111591703810592306391068200005700370260911115687379105924443600540000090095751709011158796610913844436005490000657247521080111926233409138444360046700006903475210801119151417)
 (.leaf 10592444360022100007621575170801116020299105921893600477000067925251908011157422301059207336004670000550737026080111581292810592073360047713576900550180801115759275105920733600617000071744502208011158181821059207336005280000839647521080111611993509669444360044200008881525190811115317394089634443600055000039524502216111150421210000044436002260000824145022100111928737800000444360000000005565450220201115752210000004443600540000085143702602011163511360923444436006130000864639025020111597518903554444360058500008625370260201115926913102064443600669000077935002002011158802361020644436003070000722639025020111590542910592444360047700007413390250901115877774)))))
 (.node 8 (.node 4 (.node 2 (.node 1 (.leaf 8012444360023200008213500200201115953309074954443600021000081676251502011160118670619044436004670000674631029090111580318208792444360064300008915475210201115272845087924443600664000088515002002011157960870439744436005400000802939025100111932045210592398360046700007602450220901115553166105922333600357000085325501809011153504351059220336003340000508339025091111577883910592000360017000005653410240911119378603103864443600682000086984302314011162188460838744436005920000525145022081111581649110592038360048600006641450220801119268093105920733600467000063843502708011192654361059207336007790000841045022080111928820110592073360046700008256500200801115934875)
 (.leaf 10592000360044200007057450220911116029306096694443600627000065925002008011161208770966944436003410000854843023080111621523009669444360029300008295390250801115725660104444443600273000089775251909011159505930786344436000570000412041024161111517783708338444360001600002673430230711118886312092344443600682000078323902502011161621930355444436005850000857737026020111580837603554444360065600008864410240201116449604080124443600273000077405002002011158807430879244436006430000897747521020111890286210592405360044200007187390250901115837500105922373600057000089096001609011154177471059200036006690000619939025090111569194110547444360068200008885450220901119602020))
 (.node 1 (.leaf 7510444360060500004904450220811115171565083244443600505000066414502208011194165180874644436004860146607847521080111585072208746444360038400006194475210801115711358087464443600232000077245501808011193565901059218936001440000755562515080111894750110592038360022604758374625150801115370578105920383600870000090456251510011151444041059203836004770000694352519080111550859910592073360060100006642370260801115934640105920733600467136368193702608011158119631059207336004670000718247521080111524627410592073360063400008331475210801115762277105924443600549000089684752109011159978311059244436000210000846762515090111533425909234444360068900008920410240201116024641)
 (.leaf 10206444360056700007348370260201115923777102064443600634000077384302302011194655651059244436006390000790339025020111579188510592444360011300008384575170201115813142043974443600540000085953502709011159663110439744436004670000724037026090111611826510592398360064300007574450220901119417300105920243600176000052814102409011156502331059202436005920000578441024090111592146310592444360068211328928525190901116670144087464443600505096777104302308011154008791059203836004670000597637026080111926013110592025360051709676893370260801119352430105920813600505000085964302308111192750701059208136000320000632750020091111575628209669444360028300008295390250801116042738)))
 (.node 2 (.node 1 (.leaf 9669444360028300006547390250801119116982105924443600257000083854752108011158534121059244436005490000898657517080111581511407902444360002400004737430231611116035472079344443600000000038114502210111188290470923444436001640000763541024020111994243010592008360062100007552430230201116300817105920083600567000072003702609011195630910619044436000570000868857517020111899145508438444360046700008640370260201115470038087924443600613000088534502202011187732210879244436006560000897747521090111559094910592398360055800007550450220901116002446105922373600028000088655751709011154248361059244436002830000611541024091111578907210592444360013400005319430230911115745123)
 (.leaf 6761444360057600004516450220801115554655105920383600144000077976251508011186797491059203836007990000893762515100111921302110592038360046700007238550180801119008719105920383600477000073395002008011193342561059208136004670000654337026080111587861710592073360046700007416430230801115677892105920733600467000075204752108111192042011059200036001700000657941024081111541500309669444360042300007116410240901115788879104974443600384000073054102409011155778140942844436004860000866545022090111585099810592444360042300007738430230801115252311105924443600669000077424502209011159691881059244436003840000782050020090111613461710592444360044200007932525190901116893581))
 (.node 1 (.leaf 10592444360002100007765550180901120727477105924443600000000077115751709011196657121059244436000060000778760016090111612541110592444360014800008414550180801115979071105924443600634026390266251508011155264080000044436000100000428345022101111905567809234444360006900008097450220201120382052035544443600656000087454102402011160342030619044436004670000851437026090111569484010592399360046700008577370261201115852867087924443600669000089295002002011152178080879244436006560000896850020020111906219210592100360046700007284390250901115819003105920833600116000073054102409011162811411059239836006430000752345022090111579474808360444360059200004686330281401115933603)
 (.leaf 8846444360058500005054430230711115649737079504443600257000046814752109011150547891059239736004770000632447521080111912979210592000360047700006194475210801115847078105920003600322000076935251908011152596120874644436001760000787960016080111862416510592012360014400008618625150801115617974105920383600144000080786251508011148084081059208136004670000735043023080111579886010592000360046700006054430230901115305505101754443600467000073054102408011154580550981644436002830000580839025090111584446107948444360077700007545450220901116043425105924443600017000079296001608111157098541059244436002210000900352519081111453306910408444360056700008943500200801115733025))))
 (.node 4 (.node 2 (.node 1 (.leaf 8858444360002700003963475211611115402913000004443600004000054774502210111153002680000044436001860265358843023101111889652609234444360000000005493450220201115282925035544443600656000087994102402011161312190355444436006430000884039025090111593634106190444360046700008514370261201115737796061904443600467000085463702609011155888430843844436004670000852337026120111918612108792444360054000008161430230901115535847105921003600540000084943302810011196701581059210036002930000713739025090111557513610592039360002100008964600160901115051334105920003600357000052014102409111195659770953844436004310000683231029140111599879907950444360028300005377500200901118963895)
 (.leaf 10592140360018300007797625150801119620810105920383600144000083036251508011148477251059203836005400000886460016080111636217410592038360048600007867675130801114949047105920813600486000073605251908011156604831059208136004670000657247521081111573632910592081360024700008263475210811119519014105920813600247000070304302309011158654391059200036002830028518533028090111565463410592444360048600007967250320911116516581058394443600844000083834502214011163506250596144436007660000743355018140111611779510592444360020700007949500200911115146219105924443600771000083305002008011162285701059200036000220000795057517090111580663310592444360002400007869575170911115444180))
 (.node 1 (.leaf 9110444360002207898396475211611115887509087684443600002000055854752116111154774260000044436001980000358943023100111863299600000444360005500004490430231001115675201000004443600000000073934752102011159507580743944436006170000890541024090111950994510206444360063900008920410240201119606340068154443600027000076825751709011158083431059239936000600000746943023090111922182310592398360022100007086390250901115967605105923983600004000071164502209011195269541059200036002930000870852519090111573822110592039360005500008911550180901118606214105920000090517000057433902509111163091221059200036003840000516939025091111602906308608444360023200004944500200911115273881)
 (.leaf 10592397360044200005958450220811115030864105920003600215000080375751708111151644881059214036002930000798562515081111606537010592038360087000008984625150901116053183105920383600477000083746251508111157342941059260236008390000804143023081111561854910592081360046700006903475210811115410501105920813600467000069014102409011157674821059200036002070000840435027091111580436609669444360048600006199390250801119363077104274443600283000070253902509011157718900989044436004230000746541024090111674068304303444360082500005958450220201115892508105924443600027000080926251509111158682361059244436006270000895652519090111548638800000444360001500005078450221001115753869)))
 (.node 2 (.node 1 (.leaf 8200444360086200006813450221011115853891074394443600540000087284102409011195805510743944436005400000886441024090111972619110206444360055800007969450220201115586475105920083600623000071533702602011157173311059236636004860000678535027090111544885610592444360007200007550450220901115970420105924443600183000087104502209011189114781059239236003840000731047521090111551811808792444360046700007632370260901115363447105922453600024000081755501809011157875601059200036006390000735845022090111596675610592085360006900008849525190901114722430105923453600366000063324502209111154215281059200036003070000528141024090111650579909128444360036600006962330280201116028670)
 (.leaf 9806444360011300008191475210711115805548105923973600413000056905002009011149891921059200036001760000813360016090111574854610592012360051700008155625150811115779801105926183600682000085276251508111153990171059203836004770000843462515081111582652610592081360034900006772500200811115529333105924443600016000076565251909011158611860804844436005760000729745022090111618325204777444360071900007569525190201116673156105924443600100000082125251909011151479551059244436000000000813157517091111608817110391444360001700008251550180911115654723105924443600010000082925751709011159626951059244436005760000898850020090111539658910592444360068200008988500200901115833075))
 (.node 1 (.leaf 8634444360000200005565450221611119248357076874443600006000028354502207111153381530781644436000200000482745022101111894596908200444360001400006542450221001115592428000004443600104000064834102410011157998550743944436005670000881441024090111633453310206444360045000007753410240201115741754105923663600517000069293302809011150516281059241336004130000766939025090111534487410592100360046700007604430230901116049823105921993600341000068893102909011199662171059209236000140000741745022090111543772110592049360016400007438475210901115907393105920593600024000089246001609011158258130757444436005920000818470012020111615138210592397360014400008400575170911119383970)
 (.leaf 10592397360048600005276475210911119563789105921403600207000084456501409011156152511059203836008390000899165014090111562554510592038360044200008890650140901115803606105920813600639000069253902509011159938611059208136002830000473655018090111904045408075444360045000004717410240801115833374080754443600467000062364102408011193674540834144436003660000713337026090111573348309816444360046700005940350270801115763849103134443600384000072644302308011194203471059244436002210000896460016090111572586308873444360062700005958450220901119864589041804443600782000066694752102011156556211048744436000130000811455018080111547227610592444360043100007717475210901116087282))))))
 (.node 16 (.node 8 (.node 4 (.node 2 (.node 1 (.leaf 10592000360025700009014500200911115780884105920003600157000090255251909011157675941059244436000240000812865014091111595809210592444360068600009014500200901115232752105920002230605000090215501809111160159570820044436006271064802045022101111491240400000444360000000006288500200201115969529074394443600689000080163902502011158949231020644436005670000771443023020111919642010206444360043100007650410240201119343811105920083600431000075264302308011160440741059236636008070000776443023080111571910106814444360078200007385410240901115540032105923513600021000082496001609011158080571059210036004310000730239025090111941409110592345360036600006036430230901115885045)
 (.leaf 10592000360046700005044370260811115424223085794443600198000049844502207111158390721059239736002150000849055018091111544752709505444360028300005878550180911115859700105920003600221000083036251509011159533861059214036007930000871362515091111527069710592038360084900008973625150901116071624105920383600467000086885751709011157858940984244436004670000672439025080111591620910379444360028300007206390250901119366436105924443600322000077675002009011157896041059244436005920000900645022140111506033204385444360081900006884450220201116060549104524443600057000074615002009011162141201059200036001440000788860016090111606497510592000360030700009023475210911115979873))
 (.node 1 (.leaf 10592000360028300009023475210911116064894105920003600134000089965251909111158270381059244436001340000653352519091111588960910592444360000900006632575170911119049015105924443600010000065595751709111157823111059244436001360000805562515090111581521010592444360074200008655350270901117469220105924443600517000089965251909011152648140833444436000190000425745022161111535374507816444360082400004257450221611115014568080354443600558145341094502207111188326960820044436009180000817445022100111534837107439444360083600008333350270201119561774074394443600819000086993702602011160558050681444436007770000736441024080111548633706814444360079006998939430230901115945906)
 (.leaf 10592626360078200008764430230901115686280105924093600423059472703502709011158696701059240936003070000789745022090111618390410592269360006400007594550180901116146525105921003600273000070253902509011194000801059209036003223097732937026090111501983210592090360017030097400410240901115690022105923113600027000073214302309011156515091059234536004670000688931029090111623369107420444360059200009028700120201115610448090964443600384000054506001610111154536460950544436002730000881360016091111904911109505444360052800008830625150911115977747095054443600549000089236251509111159709861059214036006340000869667513091111539993110592618360046700008965575170911119062979)))
 (.node 2 (.node 1 (.leaf 10592081360079900008425330280911115932970105920813600613000058473702609111159375751059208136006340000838755018091111569301809842444360046700006365410240801119388872105924443600400000074214302308011199024680887344436004000000727350020090111616714208873444360061300006641450220901119754690042794443600836000069974502202011156985661059244436000720000752047521090111555748510592444360018300007711575170711115948294105920003600134000077405002007111160599961059202136006270000596737026091111559965408182444360001300003139450220711114933868000004443600000000035675002010011157080290000044436000000000389350020100111566540300000444360000000004991475210201119068967)
 (.leaf 7439444360084200007781350270201121168039068144443600517000074004102408011153434941059221036004500000667529030090111590186610592067360042340526916330280901115869650105924443600486000088854502214011151315291059257636006820000886367513091111540784910592618360046700008893575170911115941289105920813600517000089865751709111158742141059208136003660000490445022091111920728308075444360028300004578700120911119386306105924443600322000073593902508011166921061059244436002830000882539025090111550432310484444360041300007718450220901115921927044184443600782000073545251902011161138961059244436001830000632555018090111557724310592444360011300006231500200901119349707))
 (.node 1 (.leaf 10592040360001300007682575170711116070764105924443600001000061356001607111161607661059202136000220000782050020071111576037710592444360000000006683575170911119155106105924443600001000067046001607111156870361059244436000020000668260016091111926402810592444360001500006702625150911116114134105924443600714000089124302309111168196251059244436007420000867037026071111606942510592444360086700009013475210901115112143105920573600026000078454752109111201449560820044436006170000547745022071111530132507439444360034100007061410240201116773119074394443600689000084983702602011205062511020644436007040000901245022120111612532010206444360028300007547410240801115655479)
 (.leaf 10592444360023200007358450220901114840013105923513600024015977895751709011194982051059221036004670000737939025090111958697910592210360047700007379390250901116328763105923373600442000065202703109011157313491059229036000270000720243023090111933962610592059360006000007030430230901115174002105923043600134000067584102408011197167761046944436004860384738543023140111506336110592000360033400008909600160911116027383105921403600870000089636251509111158104671059260236005760000899550020091111622612010592081360046701596015410240911115839487080754443600322000044425002009011152208451020344436002210000774147521080111642286310592444360019800009003550180801116071130))))
 (.node 4 (.node 2 (.node 1 (.leaf 10479444360045000008916450220901116096015088734443600549000064264502209011161585700701844436007710000681345022020111572719210592444360044200006271430230711115189370105920003600013000061975751707111162356751059215036007140000623843023071111939577510592444360006000009032600160711115461225105924443600207000090074752110111152544631059244436008360000900147521091111895276310592057360011300007940500200911115625803087064443600016000045774502216111152221730829144436005920000490445022161111497529807439444360014400004875430230711118912136074394443600009000049744502210111191184440743944436000040000761345022020111604226310206444360054008058896430230801119183158)
 (.leaf 6814444360051700007252475210801119471603068144443600793000077184502204011159901160681444436007790000776945022040111596686710592444360041300008119450220901115056218105923373600413000085853902509011189071211059243136004670805830433028090111893635710592210360046700007364410240901115735105105923113600423000073373902509011161282451059231136004230275712235027090111587891010592311360046700006992330280901115819497105921693600423027570253902508011160718780752844436004670805693837026090111575381610592444360056706018679390250901115520351092144443600232000072686751316111165097390950544436005580000900567513091111478387709505444360033400008911550180911115448246))
 (.node 1 (.leaf 10592626360033400008893575170911115375234105920813600486000089246001609111147716911059208136008240805502950020091111474069108075444360028300004740675130911115172492102034443600349000089764502208011160394600952044436005400000846243023090111612139809711444360054000006997450220901119664199105924443600057000089545751709111158167201059202136003220000627045022071111582913310592444360034100008091675130711115510594105924443600366000090195002010111157161821059244436000200000901657517071111508365110592444360077100008655350270711115492082105924443600896000090184752109111157720061059205736000550000762355018091111901156907683444360078202758160450221401116025778)
 (.leaf 9287444360002400005648450221611115998081081074443600198049450295002016111153542960743944436000250000864150020040111596934610206444360062700009038575170401119335424102064443600766000090295251908011158116530979644436001700000862255018080111542690110592444360002700008656525190901114960603105923373600467000086333902509011189422711059228436003410000687139025090111568492110592087360061300006951350270901119359389094224443600232000073346751316111160211880840144436000020000350147521071111896546909505444360033400008911550180711115574164095054443600334000086715501809111144493371059244436003660000880667513091111513583710592444360047700009003550180911119235996)))
 (.node 2 (.node 1 (.leaf 10592081360051700008611525190911115901461105920813600423000087395751709111157575431059208136004310000528141024091111902654808670444360045000005653410240801115890015086704443600528000057113702608011195898130807544436007660000827435027080111931662309604444360062100006884450221001119386576044424443600779000072735002002011162644051059244436000320000899457517071111544567210592000360062100006093410240711115962009105924443600116000079505251907111151451231059244436007140000735235027101111504238610592444360069800007420370261011119389173084224443600558000067554752102011202581290672544436008240000718437026140111663886204880444360089800007281350270201117403578)
 (.leaf 7923444360002800003811450221611114494177082004443600856000049844502207111153039590820044436009040000620745022071111933689307439444360001600002615450220711115055915097964443600714000089154752108011152181420681444436008070000898143023090111509812610592444360010000008062500200901115012480105923373600442016289314502209011187173231059233736003221318724539025090111929896110592246360024700007147430230901119163698105922423600021000069394502209011196309201059228436006210000606633028090111576633010592087360061700006713350270901115281304086454443600232000070166751316111157244220950544436004130000896460016071111590013909505444360033400008622550180911114591666))
 (.node 1 (.leaf 10592444360033400008865575170911115163414105920813600467000089545751709111153537021059244436004670000903157517091111543549510592081360006400008820430230911115894336105920813600423000054785501809111147431001059228536002830000420462515091111562465408479444360028301624049625150911115712795086704443600442000079013702608011163373960887944436002730000874350020090111673028108326444360041300007047525190901115908495082794443600601000052214502209011157665900421144436006130000723545022100111943857704992444360076600007174450220201116222841045104443600766000065424502202011157447081059244436001160000900355018071111553136010592000360054900009019650140711116044793)
 (.leaf 10592000360018300007819525190711116175037105921293600207000065635251907111158992151059244436000270000797457517071111580561010592444360002100008075575170711115405497105924443600104000068246001607111165491091059244436000550000793252519071111513826610592444360068600007741475210711119208418105924443600627000067045501809111190883601059200036002730000642350020091111582730110592444360070400006205475210911115903556105921713600627000064215251908111160253400793544436001980000395245022161111449528508200444360006000005319430230711115313897067934443600015000028354502207111151136880979644436005760000880145022041111516783009796444360079300009009525190811114719614)))))
 (.node 8 (.node 4 (.node 2 (.node 1 (.leaf 4561444360061300008800475210901119207752060084443600060000087804752109011185034591059233736004670000894252519090111459080305625444360040000007206390250901115273917105922843600020000066214302309011159142101059200036000640000442147521071111530097809505444360060500008461350270711115793485095054443600605000082823302806111157558131059244436003340000886655018091111537054410592444360044200009038575170911115848066105924443600341000090275751709111159775151059200036005170000639550020091111487812310592000360034100005432575170911118499090105920813600400000051964752109111188310020188844436006010000705745022090111974603606001444360057600007617650141401114912260)
 (.leaf 10592444360059200009051700120711115803709105924443600592000090517001207111155492521059200036002830000809262515071111604144310592444360020700008032550180711115845914105924443600450000080104752107111160647931059244436007140000726335027101111483283010592000360045000006399450220711115779082105924443600186000089775251907111153347471059244436004130000899345022101111585575210592444360002600009031625150911115017463098754443600779000069643102909011161289441059222736005920000885247521041111510182510592444360003300008799500200901114985358105923103600116000087124302309011150686980562544436002730000718739025090111900897210592246360032200007715500200901119371913))
 (.node 1 (.leaf 10592242360015740787060410240901120024866105922843600016281069394502209011156296111059228436005170280627637026090111595652109430444360069800005408450220711115023139105920003600221000069484102409111190283161059244436003490000879857517091111499692410592444360036600009045625150911119562487105924443600431000090366251509111158316231059244436005170000901655018091111508713610592000360068200006484475210911115867210084794443600283000042694752109111144587921059200036001760000683541024080111546126701888444360061300007029450220901115689561049924443600686000068134502202011159314011059244436000570000899457517071111602726810592444360006400008975575170711116088964)
 (.leaf 10592444360001600006683575170711114940108105924443600698000075593902510111193293351059244436000550000904260016091111901000110592444360011300006086550180811119082388092294443600273039347444502216111145857970903644436006170000547745022161111625418706793444360000000002835450220711119096297102064443600164000064264502204111150476030324244436005760000894445022041111969895003242444360070400008942525190411115179519105925413600686000088184502208011154371071059216436003660000708443023090111514694810592246360033403937791550180901119471822105922463600639125669623302809011160285681059224636001361083722841024090111608391210592284360059205006544350270901120059384)))
 (.node 2 (.node 1 (.leaf 9381444360048639378710450220901116032325097234443600060000052735751716111142884111059201236005050000867155018071111485489210592444360033400008847550180711114933138105924163600656000051685501809111158155800868544436003571256488152519091111894301308685444360047705004577450220911115775347084794443600517000042574502209111159396091034244436001570000889945022090111628380309101444360029300008370525190911114996020018884443600617000057474502209011192702090188844436006010000654245022090111564514404045444360074200007307550180201116443165105924443600592000090517001207111148753641059244436005920000814870012071111636005910592444360005500008034575170711115836643)
 (.leaf 10592444360013600008034625150711119464447105924443600221000067045501807111153841391059244436006640000758339025071111897929110592444360038400007844450220711114680393105924443600183000064835002007111149215721059244436006560000893943023101111571502308460444360038400008573450220711119030313067934443600011000029444502207111150550350324244436007710000749843023080111543649410592337360035720328985600161401118591429105923373600467061167882903012011195748440963844436005050000664039025090111946712108583444360048618076675410240901116021103105920003600714000069034752107111149662521059244436003340000903455018091111520484810592444360060100009013475210911114991411))
 (.node 1 (.leaf 8685444360017000004456525190911114885498105920003600015000083964752108011159713410906644436001340000860050020080111504572509438444360064300008763450220811116067558091014443600341000082085002009111149620130573044436007820000654245022020111618934808632444360057600007834650141401116953139105924443600664000060313902507111160663941059244436007040000878343023071111594694010592444360070400006586500200711115746374105924443600026000090396001607111147122691059244436005920000816570012071111999327410592444360014800008055625150711116212729105924443600027000066595751707111160342971059244436001920000678355018071111482323610592444360014800006725575170711114696955)
 (.leaf 10592444360000900006451575170711115041709105924443600621000062614102410111188630981059244436006270000869937026071111883543810592444360071400008642350271011118859527105924443600714000086553502710111157908231059244436003490000892950020091111504435910592171360055800007893500200911115012102089574443600639000069394502208111162478400880144436006130000517345022161111583056306793444360000000007392450220711115763191032424443600576000089674502204111150889731059234436002830000724539025090111410746910592000360014800008930475210901115146068105924443600835050576623702609011153772931059226536003661980675841024090111944188110592265360048607176996410240901119017926))))
 (.node 4 (.node 2 (.node 1 (.leaf 9419444360071400005276475210711114460240105920123600486000088945501807111158020581059244436003340000877955018071111896603510592444360033400009037550180911115345182105924443600477000067046001609111160052581059244436004310000653155018091111911418110592416360070405055788450220911114675224105924163600709000056644752109111157971901059241636006820000519647521091111897151508863444360028300005196475210911114863515105924443600226000089936001609111155632290619144436006170000497445022090111521577406191444360066400006884450220901115587073105924443600617000077174752107111159151961059244436006980000630445022071111577986210592000360057600006457475210711115819923)
 (.leaf 10592000360047700006050390250711115900358105924443600148000090255251907111163037421059244436000210000902257517071111560698210592444360059200009041700120711115526888105924443600025000066595751707111194771741059244436007140000871137026101111571951610592000360028300008955550180711115893547092784443600779162875504502212011159048050854844436001440000426947521161111533358008460444360022600007613450220711115735671032964443600064028552214502210111146595101059244436005760000894445022041111575484110592444360061700007235450220901119232443105922393600366000070294502209011158102571059236436004670615638133028090111479176310592000360014800008961650141401113999334))
 (.node 1 (.leaf 10592444360048614916977430231401119262379105923373600592028570993702609011196399371059226536004502493735239025090111627326610016444360028300006135600161611116798386091734443600709000054485002007111147270651059209436005170000749052519071111904914410592444360033400008779550180711118905018105924443600334000088475501807111148535081059244436003340000903055018091111499802110592444360033400009026550180911115937109105924163600413000072974502209111144939390886344436005400000557341024091111461558708863444360010000008584550180911115786480083004443600639000072735002009011161204471059244436005850000774050020071111899770010592444360003300008014575170711116078244)
 (.leaf 10592444360006000008032550180711116124904105924443600025000067255751707111151135391059244436000720000658357517071111595940810592444360002400006611575170711115823778105924443600055000064535501807111159083141059244436006560000755939025101111588566210592444360040000006110390250711115527305105924443600719000087273702610111156435411059244436007140000858435027101111559240710592000360066400008711370261011115767199105921713600226000088695002007111151553910679344436000170000734050020071111579292808876444360006900008600500200711115684882105924443600576000076874502204011190456471059244436008370722900860016041111559775910592444360080700008831410240411115383629)))
 (.node 2 (.node 1 (.leaf 10592211360077907227090430230901115142461105923643600467000061573302809011145035891059200036002730000895065014100111384755610592444360038416996977430231401115231325105923373600467039970433702609011160258960917344436004500000598047521071111477336510592094360068600006972500200711115151005105924443600334000089875501809111190757680886344436001570000885150020091111591411306191444360055800006884450220911119233685048744443600742000063244752109011159553181059244436002470000897645022071111550363510592444360070400007819525190711118907895105920003600232000072974502207111192481571059200036004420000648350020071111883676210592444360002100009041575170711114157463)
 (.leaf 10592444360002600009039600160711115267485105924443600025000065055751707111148698931059244436002210000776555018071111591146210592444360002800007993575170711114682365105924443600207000089444502207111157281611059244436006210000877839025071111560200310592000360040000008976450220711115554309105921713600639000062614102407111158891341059230836006170286776945022071111492694209527444360084500007207350270811115725619098284443600656000078195251908111154654270873944436004420000795347521161111849793210592444360057600007844450220401114713693105924443600779000090265501804111191357661059244436008370000902760016041111501085310592444360068200007358450220901114735983))
 (.node 1 (.leaf 10592000360046700007344410241001118415006105923713600442000088034302309011143270931059215236003411098719047521140111578711310592444360033400008847550180711115984863105924443600334000089275501809111159599531059244436003340000892755018091111585179510592444360033400008955550180911115940187105924443600334000089665501809111147175771059241636004770000561443023091111450130508863444360015700009032600160911119166980103354443600028000086676251509011159830180841444436001830000843462515041111535633107267444360045000004164550180911118958264081944443600505000071995501809111158539710706344436008190000677250020090111587752910592444360028300009016550180711116030957)
 (.leaf 10592000360059200006048500200711114684682105920003600226000077174752107111158336581059200036002070000793252519071111579981110592444360010000006533525190711119438182105924443600021000090385751707111186500961059244436000210000795057517071111897021710592444360006400007712550180711114474050105924443600136000079925501807111186380051059244436003660000784550020071111549475510592444360065600008920410240711115867393072514443600366000062025002016111156672240764444436002830000493860016161111569207107408444360024700005276475210711115816370060154443600113000044004102407111155102191059244436005760000900045022041111507077410592444360064300007236450220901114339698))))))))))
 (.node 256 (.node 128 (.node 64 (.node 32 (.node 16 (.node 8 (.node 4 (.node 2 (.node 1 (.leaf 10592337360058521018175550181401115713107105923693600719317173523902514011191458901059204136007140000453147521071111491443010592000360071400005008475210711115227194105920943600366000088315501807111158744881059244436003340000886655018071111613090710592444360033400008987550180911115055653105920003600198000061135002009111145161840886344436007140000569050020091111454730108863444360015700008872450220811119178237105924443600069000090006251509011160061020819444436005760000629845022100111494947008793444360063400005958450220901116475566105924443600567000090035251907111189208701059200036005400000737647521071111459595710592000360033400477873500200711119157680)
 (.leaf 10592444360002200009038575170711116060744105924443600021000090355751707111159344681059244436005920000814870012071111969887610592444360003200007621575170711115315298105924443600100000064175751707111157076041059200036004420000891243023071111861933810592000360066400008825390250711115430543105920003600714000086553502710111141950510873944436006170000482745022161111467134708109444360028300004764475211611115371391073924443600273000047155251916111157604361059244436008070000870939025041111495123110592444360080700007162390250201114073822105920003600477000068134502210011138848681059237136006690000757445022090111649778310592371360068200008257475211401115942059))
 (.node 1 (.leaf 10592371360047702906449250321401115904731105923713600366083379754102409011190767911059242736007140000675547521071111598483210592000360041300008831550180711115746683105920943600334000090265501807111158321181059209436003340000903455018071111582434610592094360033400009021550180711115887231088634443600643000044214752107111158551350886344436006820000504852519091111475310405867444360061700006759370261401116136315105924443600349000077665251907111144660011059200036005050000771550020071111454437910592444360005700007992550180711114845506105924443600021000090415751707111152465251059244436005920000814870012071111496353410592444360002000007869575170711114927943)
 (.leaf 10592444360001700007652575170711115220510105924443600033000064175751707111189506671059244436001570000893860016071111856437210592444360066400007990500200711115754405105924443600766000087443702607111188360601059244436001440000902450020071111433474510592000360028300008988525190711114527722105921713600400000078195251907111161010380910644436007141019768745022081111616428108444444360034100004984450221611115650538069324443600293000046305251916011157012621059244436005850000731739025041111471759110592444360080700008840390250801115064728105924443600643000071684502202011140504671033644436002320000893567513161111513104610592094360033400008866550180711116269430)))
 (.node 2 (.node 1 (.leaf 10592094360033400008927550180711115942353105920943600334000089115501807111159581521059244436003410000892557517071111898137610592000360018300005328575170911115969458086284443600273000086676251509011145329300875944436007710000707547521091111874870310592000360082500006322390250711116018649038364443600704000053434302302011159592401059244436002210000900355018071111489108610592000360055800007570500200711119156593105920003600709000078205002007111142879871059244436002830000805465014071111465395210592444360000000007869575170711114645092105924443600113000078175501807111148089521059244436004310000792862515071111496552310592444360034900009018475210711118538697)
 (.leaf 10592000360044200008994475210711114863233105923083600656000076275002008111148449231059230836006890000593839025081111913692108905444360023200005338450221611115959160062464443600450000059524752116111156904691059200036000250000308743023071111867637106015444360052800004780330280411116001149105924443600576000089674502204111147235381059244436008350000901245022041111920522610592444360084200008084350270901115256367068144443600517151479162703114011200938840681444436006820293754545022140111668289504241444360066408376925390251401119477921036934443600846000064044302302011153445190945444436002260000868065014161111487121310592454360071400007075475210711114938553))
 (.node 1 (.leaf 10592094360033400008941550180711116010521105920943600334000089115501807111149479651059200036001160000477439025091111876877910592458360034900005648450220911115817807105921413600442000036564502210111157052150762444436006640000525145022091111941003007624444360027300009009525190911116032596084364443600686000075255251909011142686721059244436001760000799357517071111468267110592444360021500008012525190711119199216105924443600057000090355751707111188465351059244436000170000902257517071111909042310592444360002700007789575170711116250958105924443600064000080145751707111161680831059244436000180000797457517071111517075610592444360061300008091675130711114267036)
 (.leaf 10592000360070400008653370260711118873110105923083600686000088335002008111159403280823344436002320000482745022161111387705707044444360019800004257450221601114649110105920003600033000037574302307111154850381059244436005760000889945022041111457635110592444360083915208317370260901115088306014034443600621040979674102414011147560350882744436002210000560765014161111578941010592094360036600008894550180711114300563105920003600704000049213902507111155198971059200036007090000479741024071111387617910592000360041300007225525190711113874513081024443600621017836704752102111147693450897744436005170000835450020090111612595910592444360071400009019500200711115828300))))
 (.node 4 (.node 2 (.node 1 (.leaf 10592000360032200007990500200711114257188105924443600423000080115002007111158736871059244436000640000903857517071111607931710592444360017600009025525190711114293604105924443600072000080766001607111190375801059244436006210000904965014071111845696010592000360057600008926430230711115793100105920003600192000089764502207111146031371059244436001570000902450020071111542821510592000360036600008897500200711116059964105920003600639000089425251908111192721300937644436007140000632750020081111641146708400444360023200004662450221611113769441105920003600505093849293502704111189904211059200036005760411893145022041111908686810592626360079900008955550180411115177588)
 (.leaf 10592444360068913757375450220901116058427014034443600639000079144302312011147419680415744436009341451726539025140111427580708492444360022600004992675131611115328629105920943600613000087625251907111147349301059209436004000000862255018071111375377910592141360048600004981550181011114457935105921413600634000060584502212111144392460762444436006820000507357517101111467078610592444360029300006634550180711113890161105920003600247000065854752107111140116111059244436004500000672150020071111440358310592444360062100007891475210711114410840105924443600157000090205251907111158224021059244436001640000902552519071111583719010592444360003200006294575170711115044980))
 (.node 1 (.leaf 10592444360006900007840575170711119053214105920003600334000089885002007111157489191059200036005580000891243023071111575836310592000360070900008764430230811115526657105923083600528000086193902508111151718810814344436002210000466245022161111379079906005444360022600004109450221611115671364075124443600221000041094502216111155625491059244436005920000854637026090111902472903965444360054020796655330281401120123350041574443600934276277533902502011145829400865844436003410000495262515161111450127610592000360071400006572475210711115984286105920943600341000085845501807111192624421059209436003340000884755018071111590173510592094360033400008637575170711115380603)
 (.leaf 10592216360022600006299550181211115544027071454443600576000046165002009011156568731059244436002470000797455018071111457400810592000360033400006358525190711114309827105920003600247000067025251907111141087381059244436005490000801150020071111440441710592444360002100009031575170711115705437105924443600033000065595751707111194880671059244436001130000648055018071111638682010592444360018300006391550180711116259319105924443600033000062945751707111159001861059244436000600000653057517071111596591510592444360077100008968475210711118871773105924443600714000090234752107111146451041059262636006640000880939025071111576654210592000360056700008890410240711115955561)))
 (.node 2 (.node 1 (.leaf 10592000360022100008977525190711116124692093764443600528000062315002008111160729310918044436004000000853947521080111644317707994444360005700003811450221611113771842082364443600192000038114502207111158056911059200036002730000396637026071111875502810592232360068230824701390250401115828374105920003600779167789875501804111159017351059244436008350000897645022090111899500310592444360068900008853450220901114200226061904443600656104461152903014011168888680619044436005671302590327031140111582070901403444360089100007314410240201114143899085614443600226000048846501416111158989411059200036007140000675547521071111418390210592094360034100008846575170711114487842)
 (.leaf 9132444360054901815217290301211114097207087934443600592000035344102409011154869951059244436005920000889260016071111572621510592444360010400009002575170711116133609105920003600307000065335251907111138748261059200036002320000663455018071111412515310592444360019800006680500200711114265644105924443600021000064515751707111193149881059244436000210000655957517071111632483610592444360022600006506550180711118787307105924443600232000065855501807111161477591059244436005400000903157517071111486830310592444360068900009037550180711116335078105924443600709000089814302307111152546191059200036005920000879639025071111881982910592000360019200008978500200711115687937))
 (.node 1 (.leaf 10592000360068204138871430230711119094087105920003600025041635285251907111159356321059200036005850000901745022041111618761905697444360056704166133270311401115948320056974443600540052767242903008011168475830492344436006822235664145022020111604012308585444360022100006379625151611114340921105925993600664000071055251907111161049961059209436002070183719857517071111885267610592216360028300006976600160711115837685105922163600558000062763702612111186525440913244436005400000534531029101111876100907145444360068200003952450220901115069146105920003600257000065335251907111137604081059244436002260000668252519071111385327110592444360002800006659575170711114157015)
 (.leaf 10592444360007200007931575170711114188671105924443600033000080545751707111142115071059244436000210000805457517071111422880210592444360022100006453550180711116290118105920003600307000090064502207111139302591059200036002210000901055018071111598742409491444360052829428641500200801116802704084204443600025000052514502216111139583501059200036000080000283545022161111334811906646444360019200003501475211611115873156105920003600134000041345501816111139310151059200036008370528902160016100111576664210592000360083700008974600161001115781622105920003600837000090216001614011160167860619044436006210528654627031120111688138806190444360057601846133270311201116613644)))))
 (.node 8 (.node 4 (.node 2 (.node 1 (.leaf 5697444360079007476673310291401117164863056974443600540328572284102402011146815600865944436002210000514062515161111444187210592094360048600006457475210711114067832105920943600186000083185501807111160827791059221636004501394623641024121111869586809132444360054000006894310291011118732587101814443600605000056534102410011160642570747144436005400000795347521090111425906110592444360032200006615525190711113962025105924443600192000067455251907111138500231059244436002260000668050020071111420394910592444360054000008184700120711115794639105924443600257000079716501407111161446021059244436005920000796770012071111618360010592444360077100008977475210711114143845)
 (.leaf 10592000360022100009037550180711116128316105920003600221000090305501807111159359661059200036007140000876139025071111391163208894444360082536198870475210801116261418087814443600104000049044502207111153764371059200036008280000844033028100111592177610592000360082800008518330281001115722300105920003600771030384473502710011185582750923544436006430000859535027100111406560710592444360066909648111290301001113832097105924443600477205657763102912011153308550569744436005400000711641024080111541452305155444360056709647151500200201115723453105920003600714000065724752116111137744651059209436003660000773362515071111373974510592216360020700006096650140711113751551))
 (.node 1 (.leaf 10592216360038400006737450221211113880156091324443600322000068914302310111157845981059229436006270000394041024090111584915310337444360048600008907625151211115491671105924443600100000065855501807111141107211059244436001920000656352519071111378635910592444360020700006632500200711113697680105924443600027000066595751707111184026841059244436001340000791155018071111418513510592444360006400008055600160711114041034105924443600771000089944752107111142586031059244436005050000904965014071111508094110592000360032200009028500200711115742746105920003600164000090245002007111159217441059211636007140000889041024071111965959510592000360033400007572475210811118819053)
 (.leaf 7547444360089609648280450221401116167602105920203600000000024074502207111136617721059208436001160000401957517161111554793210592101360011600007502575170711115864852077254443600576000054325751710111159657230807744436005760000605860016101111866890208077444360057600006053410241011115837341105924443600505018661152903010011138549730619144436005490304652925032120111653071804918444360054000007000410240201115376888096044443600283000052296251507111139199471059221636003660000728160016101111394539710592216360038400006884450221011118485311105920003600423018668853902510111160933051018144436005760304511939025100111481251206097444360063403046220450220901114993220)))
 (.node 2 (.node 1 (.leaf 10592444360023200006744500200711118800953105924443600623000080926501407111168928161059244436007190000901847521071111403019610592444360071900009033525191611118623156105924443600592000090527001207111152180101059244436006230000892041024071111592928506425444360013400009033525190711116085188067734443600782096885684102402011147088760782044436004670000440845022071111541095010592084360001500002847475211611118344163105921013600009000040964752107111188664930864444436000640059473655018071111579803908077444360056700006476600161011114062750105922083350704000067242903010011157491620911544436007792844580829030020111594153307479444360044201878814525191401115686188)
 (.leaf 8602444360036600005525600160711116190671105920943600714000051964752107111135413501059259936007140000713447521071111835153610592444360000000002107350271001116333145102664443600221000088926001612111141430811059244436000320000670557517071111345494810592444360006400006802575170711114281725105924443600719000090205251907111161770101059244436007190000900747521071111410146710592444360068900008971430230711116084094105924443600221000090375501807111141025800642544436004420000902347521071111864410110592116360054000007310475210811116102446105922403600104000035894302307111132238300920844436005760000841860016071111589180009701444360068900006747650141011115838627))
 (.node 1 (.leaf 10592000360082501888494330281001115685599105920003600704000080252703110011187365161059233636006212119773531029100111597824410592336360068603078049410241001113716770091154443600714156387104502202011136776830804744436005580000492347521071111359058010592599360048600007281600160711113573393105922163600528000067725002007111136165921059244436000000000210735027101111585930606838444360060540744063410241411115796182101324443600605000089376251512111160042591059244436000640000680257517071111567165810592444360051700006611475210711113894224105924443600714000067025251907111156530741059244436007190000900747521071111404839210592444360077100008977475210711113809935)
 (.leaf 10592444360051700009048675131611113925314105926263600605000089054102407111143601201059200036008250000847933028071111458784010592116360062700008665450220811119092135105921163600540097774174502210011188273660817044436003410000640443023020111931106610592250360006900003037410240711118331921086444443600576000061356001607111158254900970144436006210000625762515121111370592409701444360068200008971430231201115606557105920003600766065085663502710011135975930619144436005850766736233028100111872991508221444360036600005377600160711115418132089384443600714000069544752107111158014711059259936007140000713447521071111333543406766444360065600003876450221001119787819))))
 (.node 4 (.node 2 (.node 1 (.leaf 6529444360071900004280410240901116122905105924443600400000066546251512111158341231059244436002150000661552519071111332396110592444360017000006682525190711116598249105924443600714000090184752107111160890551059244436005050000902850020071111612696010592444360064300009007475210711118924239105924443600627000090006251507111143279251051244436007140000902952519071111436912510592444360047700009046650140711113965007105924443600617000078914752107111187528770963444436002570062860460016071111599555209677444360032204285386390251011115845469097014443600828000065257001212111137336841059200036008030191850733028100111343508109824444360083901918111290301001117991210)
 (.leaf 10592444360000000007559350271001118447408105923363600807077368903302810011159041651059242136005490654691135027090111402136109115444360001900009049650141201113875648079954443600186000049145751707111154231700893844436007140000484747521071111586264609604444360070900006688500200711115548763092354443600144000048223702610111144802960890344436006230000440845022100112006950608903444360066400003670475211001117647053105924443600549000089516251510111162429491059244436004501578661147521071111356192310592444360071400009017450220711115947716105924443600714000090174502207111160159471059244436007140000901745022071111607188910592444360071400009000450220711113612182))
 (.node 1 (.leaf 10592444360059200006676700120711116202001105924443600714000090205251907111158848621051244436007420000902450020071111390504510512444360071900007658475210711113425513105924443600349000078455002007111159536381059200036002210000781952519071111596303010592000360065600008476525191211114409194105924443600207000066254502202011149060190720644436006560000306431029071111562694309701444360062737985522500201011113787206105920003600824150983923102912011138555991059244436000000000621735027100111364152408374444360056700005069550180711115305960089384443600709000057085002007111137044310960444436007140000695447521071111581277710592000360048600006834475210711113468411)
 (.leaf 8903444360063400005251450221001116000762070984443600517065563484102409011163460241059244436006890000668252519121111356759210592444360052800006659525190711115400949105924443600349000066345251907111157446081059244436001360000668355018071111588408310592444360044200006721500200711114152432105924443600592000068807001207111162371231059244436007140000765652519071111846883310592000360022100007931500200711116014397105920003600777000086703702612111188515901059200036007421659556445022121111899357904494444360078218558057475210201116903697002384443600005000021594302316011129859520970144436006820431588347521121111407532510592000360082404318359310291201118501706)))
 (.node 2 (.node 1 (.leaf 9813444360010000006629350271001113445009105924443600656173373093702610011185790891059210336008190000768543023100111336453409115444360076605447574450221001118655087105923423600283000060784752107111157446281059234236006340000645747521071111852367010592342360071400006669475210711118644552105923303600704000059804752107111188621080710944436004130000586545022101111701223006698444360066900005865450221001120429411062624443600682000047875501809011171890401059244436006130064666055018121111348990310592444360033400006748575170711115881239105924443600621000063955002007111140154731059244436007140000661147521071111382190310592444360071400008967450220711115876772)
 (.leaf 10592444360071400007685500200711118739017105924443600714000064835002007111161064631059244436007190000900352519071111593060106425444360062300006455500200711116075390064254443600714000089575002007111146454621059200036002210000795052519071111383011510592000360056700007627500200811113897145044494443600742118172364502202011148153090660844436006560000356933028101111592512100238444360058500003595575170711115490502096774443600247000057945501810111156983520967744436005400000576760016101111590281810592000360083704336067700121211113842046105920003600824000082182703112011185245331059200036008240000822329030120111354535309813444360018300006796390251001113390125))
 (.node 1 (.leaf 9115444360071900007443410241001118474948105922093600656000048015251907111159875551059220936006980000675547521071111389847410592601360071400006669475210711115974235105920823600528000058844752107111156548151059203736001441673453147521071111608134107109444360062100005565450221011115643769105924443600613000065855501812111135000351059244436007190194653447521071111603380110592444360071400009017450220711116118033105924443600779000090035501807111162237121059244436007190000899447521071111620352110592444360071400009000450220711115897061105924443600714000089775251907111151615871059244436005920000645355018071111448898210512444360000000006562450220711115941400)
 (.leaf 10512444360071900007768475210711118614391105924443600714000077424502207111185527860642544436002210000776750020071111873785010592000360069803147872475211211119455948105920003600664000072735002012111136372721059211036007140000749052519081111376344607067444360054915272774330280711113227788000006143600505000025645751716111131023291000344436005760000860460016071111579261510592000360083704358898475211201114186461098244443600836000082463102912011161201780981344436008700000810731029120111853303709115444360077900007928450221001113019433082974443600477000057415501812111134023371059220936007090000648350020071111835841710592202360071400006755475210711113100575))))))
 (.node 16 (.node 8 (.node 4 (.node 2 (.node 1 (.leaf 10592082360071400007252475210711113043760101334443600207000064515751708011137497331059244436006640000670252519121111585784810592444360059200006704600160711116147901105924443600714000065344752107111136921831059244436007140000885345022071111682073410448444360063900006747650141211115687438105924443600714000077424502207111188295330496344436007140000902552519071111909877606425444360071400009029525190711114920383049634443600486000090035251907111192741370023844436006894051385527031071111579779610592101360057600008700600160711115809123105920003600837181788335002012011139400210982444436008071202802527031120111354259602772444360083600006685370261001113448182)
 (.leaf 9115444360079900007574450221001113498021105926263600528000042964752107111184813981059200036001980000683447521071111812687610014444360061310078951625151201116579465105920003600714000067005002012111137234150942544436007420000658357517081111621589808785444360071400006205475210811116279639103944443600686000066835751712111140833081056144436007420000639155018071111582040610592444360071400009029525190711116460333105920003600686137355465251912111164790980464044436007040000851560016021111418948710592101360061300004715525190711118391888105921013600273000089545751707111189342711030044436005920000873957517071111354936510300444360066901988969700121201118857950))
 (.node 1 (.leaf 10592000360079300008954575171201113638876098244443600828031884073302812011128911690911544436004860000688445022100111359992709115444360086700007435390251001118890983080524443600366331667706001610111146407231059244436006430804344552519100111277804410592000360010403184096475210711113246381073134443600714000059804752110111162602381036144436007040000648152519121111875607010221444360070400006563525190811118379496104414443600742000065296001612111160255161008544436007660000655860016121111580374209998444360077100006300525191211115157468101444443600714000074384752112111190239691059244436007140000901552519071111672192404963444360074200009017450220711119146167)
 (.leaf 10592014360063404385855525191201113911614086104443600704415287995002002111134772031059228336005761386342833028101111289605910592101360024700008757600160711113467682103004443600617000089977001212111133976221030044436009210320878041024120111607670610300444360092501998780410241201115966888105924443600836000089574502212011157719670982444436008241466798625032120111252327109236444360071908086544350271001118578496092364443600849000078843302810011132431450765644436002730440639057517021111609897609979444360062700006356575171211113385675100874443600777000064805501812111158386431007644436008250000891547521121111610848810592000360052800008881525191211113259311)))
 (.node 2 (.node 1 (.leaf 10592000360063905637949500201211118573807105920143600634006958114752112111189540980830344436006230200471031029121111339021510592283360004802002624410241001118361393105921013600341000080586001607111128660201030044436006340000898070012100111343079910300444360093000008742390251201116038022105924443600824413883793102912011153652400754944436003070000641660016020111628160609956444360056700706385625151211115863243105654443600799242390396001612111158666680496344436007140070884039025071111396434208503444360060510234754330281001113514931105925953600540000056793902507111131180111059210136006130000892265014071111290080510300444360083700008934700121201113984600)
 (.leaf 6059444360046700006528625150201116209826105924443600709000090105501810111133406720496344436007090000903557517071111634630306192444360066900006917500201001119315295000004443600000000024074502216011130558691059239336001700000263850020160111825994907695444360025700005083390250711115988239105921013600247000088136001607111128068411059210136006170000899770012071111303305009883444360083700008875700121001113245704095544443600567092765006251512111158530511059244436007090000903162515121111372861004963444360070900009026550181211116483481049634443600714000090025002012111162979430838944436007140000768550020121111895304408389444360064300005127500201201118661885))
 (.node 1 (.leaf 444360086503258084350271201115870166105921013600183000088926001607111126757160988344436007190446858765014101111243436909883444360090800008988525191201113145434105924443600828058585413302812011128714041059244436007090585902155018121111361422104963444360071400738818450221211116143721083894443600714000078714502212111162716780859044436007770710742143023101111605549104296444360082400008140450220201115497525028924443600962000072994302312011126056701059239336006170000289960016070111280682910177444360000000008614450220711118415713098834443600714000086186251507111127529471008444436008350000894350020120111581300210592444360080700008491350271201118217314)
 (.leaf 10592444360080311468477350271201115777412105924443600828000085183302812011182931801059244436008280000854133028120111305734510592444360074203279026550181211113683950049634443600714000074004102412111132147100838944436007090447768550020121111600683710592247360076600006572475211011112759516000005113600990000067764502205011125971620512544436008980000316352519071111275947410268444360018300008865575170711116086822105921013600558000088495251907111158876760988344436007140206877162515101111871135609830444360083600008925575171211112569641105924443600837125189674502212011156517801059244436007790000865337026100111575777610592444360082805958494330281201113248182))))
 (.node 4 (.node 2 (.node 1 (.leaf 10592444360082400009014500201201112401995105920003600634000076864752112111130119420838944436007140206668850020020111296435803833444360064300005221450220201118588348043014443600714020668545002002011162572930061944436009201810508339025020111616715705504444360057600008566525190501115913126095864443600000000077314502207111159634691059210136002260000864150020071111256747109489444360071400008713625150711112289223097434443600837033090047001210011158935611059244436007041158842135027120111318040310592000360068900006399450221201113158557091404443600709416058803902510111161813810496844436007094214879950020020111619892105229444360093503318016390250501118498873)
 (.leaf 511360099100002615450221001118292902051254443600908000039935251907111121882180948944436007140000866762515101111280372709230444360083700008920700121001118149694105844443600837000089934502210011157272801059244436008241262896745022120111581260310354444360082400008986450221201112061485098494443600771060464835002012011162691080977644436007141165642447521120111275152510234444360081939158976550181201116031065049884443600686084459435501802111124684360077544436009320000524665014020111577403905125444360061300008266575170711115884133096974443600849000088815251910011124320810938444436008190000891057517100111528264010592444360074200009022575171201115575872))
 (.node 1 (.leaf 10575444360068200009019500201201115318742028054443600982000056187001202011122200260423544436008580209786547521120111654145902572444360097900006884450220201112544945051254443600807000053585751707011158670381059225136006170000851560016071111803014810042444360030714568357430230711115783465104674443600714000089516251507111184322030124744436009370000762157517020111615706200188444360095300008037575170201116803045038524443600980000062984502205011123783561030244436003220000846243023071111202817201912444360095200808020450220201116099357036014443600862000074084752102011126129170405244436009910000498445022050111215460510302444360013400008488450220711112132032)
 (.leaf 10446444360055800005415370260711112118560102604443600714000089736251507111187442270575444436005670000889552519120111614392006387444360084221678174450221001118449076040524443600958000088184502208011123466301019644436000690000636445022071111616080610028444360002200006270450220711111957999098664443600176000054774502207111181591390988744436003410000589443023071111645822305077444360056700006389600160211116398559034804443600961000075234502202011180971020512544436008580883389443023100111575248310196444360001302166173450220711112484790100284443600010000054084502207111183050701031744436002210000861445022071111606575310368444360071400008923625150711116276578)))
 (.node 2 (.node 1 (.leaf 5937444360023200007516550180201116428262045554443600477180954554302302011162613880259044436008352077774557517020111604206006871444360083220777934450220501116170825101964443600017000056484502207111160755930944844436000320000533845022071111189007805548444360035700006688500200201111699480045434443600742000053935251912011165118620103944436008580000337660016020111198848805059444360084614056856550181001111717458064964443600000000041094502205011152533090523744436008560000232341024050111791405210592000360079000005657550180701117784443089954443600221000057244502207111157946580928144436001440000540845022071111809297209041444360022100005078450220711115881486)
 (.leaf 10470444360022100008573450220711112005125035924443600858159145306251505011157676950570444436008580000535857517100111184209606612444360000000004408450220501116609325105920003600779000052495501807011114449440995544436002570000614345022071111574363609424444360006900005564450220711115768566105924443600221000088534502207111118894060559744436003660000535857517020111810894204453444360064300004715525190201111716408043444443600144000074146001605011162147290639644436008450000766750020120111250185905023444360091900003192410240501111553974092814443600334000047174102407111112730620461644436004420000738055018020111137801207210444360087000008062500201001111584379))
 (.node 1 (.leaf 6231444360093600003534410240501111717596089614443600157000054084502207111159065381059244436002210000857345022071111613224207894444360088500008781450221201110737336062314443600971000054084502205011114457811059200036002150000848741024070111599631009090444360020700005078450220711116008164090504443600221000054084502207111160598491026544436002210000572445022071111602093306678444360084400006324475211001115635807075324443600897125986654502212011157857130820344436009210000889945022120111464668205003444360071400004577450220501111459578105920003600824000086496001607011110359800969544436000140000556445022071111147759109108444360003200005173450220711110982241)
 (.leaf 10248444360022100005564450220711115678530000004443600832000047644752110011159677160531144436008900000240745022050111130502509991444360050500008928525190701118129012098034443600221000084384502207111160736331050244436002210000876345022071111548052300000444360085800003876450221001110950478000004443600828000064574752110011180793500505444436010330000542947521050111525224209991444360063400008851500200701111259166086564443600540000080096501407111166573910532144436008350000742850020100111591494707048444360086225306426450221001116155555048844443601000000044084502205011160780510965144436002320000848845022071111207009409009444360061700008419700120711116260746)))))
 (.node 8 (.node 4 (.node 2 (.node 1 (.leaf 4974444360028300006856550180201115123619085444443600891234888994502210011157500130833544436008850537843845022100111595983308488444360034100004891430231001111032371104664443600442000087006001607111162378530477244436009680000502950020050111583673206534444360044200004300370261001110972293084884443600450000052514502207111105803170848844436002930000531943023071111154963610161444360033400008656525190711115811780102104443600116000063324502207111160712220948244436001000000547745022071111116432009497444360066900005723410240701111022620100074443600113000058644502207111113313270741444436000020000429352519050111566155207399444360060500004615330281001110917787)
 (.leaf 8522444360022100005864450220711115987078101574443600026000058644502207111109360591057944436003410000856841024071111064990907091444360000000004646550181001116061450095604443600221000057244502207111159227180686544436000000000416455018100111539782400000626360042300005326390251001109923959094974443600528000053814302307111105028331059244436002210000880145022071111595654307661444360000000005168550181001116163637000006263600024000073924502215011099876690718844436006340000489143023100111626516909886444360083200008836450220711110269186099104443600828000084384502207111164719560988644436008350000630445022071111004773609388444360079900005895390251001109960111))
 (.node 1 (.leaf 9388444360002600008614450221001117866101081404443600771000059524752110011159295200955744436005920000617345022100111615466909646444360043100008780410241011116557718090984443600779000087814502210011094269700940244436002210000884657517100111589686307717444360000200006712525191001108922067081594443600334000081906751310011157402140932544436000030000632652519100111613507805126444360086500006697300020801115031531105924443600505000066973000205011159267251059244436006860000669730002050111757792709846444360040000006697300021611110176246105924443600709000066973000214011177436491059244436006690000669730002140111731629110592444360082400006697300021401117426848)
 (.leaf 10592444360082400006697300021401117284928105924443600793000066973000214011173096121059244436003660000669730002071111107108603309444360015700007986300020501115801207012964443600623000005403000015010874467080016644436006230000017845022150111471974100319444360062300000644450221001090440758035154443600198000003013000015011133255680229044436006230000022030000150108845664802290444360062300000418300001501113482672000074443600623000002884502215011149548430000044436006230000014745022150111483340200000444360062300000053450221501091422418004104443600198000000000000315010910328650060344436001980000000000003150111454049400573444360062300000867450221501115749390)))
 (.node 2 (.node 1 (.leaf 788444360062300000774450221501091050281022904443600623000005853000015010894654690034644436006230000051045022150109170371600094444360062300000589450221501115049149002414443600623000002604502215011155835280086944436001980000000000003150111508163000163444360062300000244450221501091234077001634443600623000002444502215010910594220033344436006230000046045022150109159345101464444360062300001017450221501113325568017404443600623000010374502215011134826720022044436006230000057345022150109195199800015444360062300000158450221501091910660001794443600623000004584502215010923092620046144436006230000054045022150109180013101877444360062300000406450221501090999241)
 (.leaf 2290444360019800000000300001501113482672022904443600198000000923000015011134826720307744436001980000008430000150111348267203077444360019800000082300001501113482672027894443600198000000813000015011134826720293744436006230000009930000150109099924101164444360062300000500300001501090999241028294443600623000009923000015010909992410029644436006230000118045022150109278387701050444360062300001379450221501114493818002624443600623000010384502215011152913490085844436006230000040145022150111570997400415444360062300000056450221501092353188008444443600198000000000000310010931064200002644436006230000036745022150111573424803379444360062300000465450221501113482672))
 (.node 1 (.leaf 2290444360019800000000300001501113482672025494443600623000007893000015010915017390029644436006230000051345022150111487028500586444360062300000936450221501093269708015074443600623000014794502215011144584170046844436006230000071445022150111502601700297444360062300000189450221501115316602002554443600623000001534502215010930976430180044436006230000099245022150109200352503200444360019800000000300001501113482672032004443600198000000003000015011134826720265244436001980000000030000150109200352502549444360062300000101300001501092003525013504443600623000009783000015010920035250018244436006230000022545022150109372312501100444360062300001245450221501115743280)
 (.leaf 693444360062300001321450221501093269505014124443600623000013544502215010938241610052744436006230000083145022150111456902300496444360062300000850450221501115072196001554443600623000001724502215010939022400025344436006230000024245022150109357963403205444360019800000104450221501092504558032004443600198000000003000015011134826720070944436004860000100930000100111594078601274444360007200000358300001501115239467002474443600623000010384502215011144174060022344436006230000083645022150109434704600305444360062300001038450221501116025005004254443600623000010764502215011154686750006044436006230000027545022150109468694600066444360062300000589450221501115185439))))
 (.node 4 (.node 2 (.node 1 (.leaf 1471444360062300000481450221501113325568031924443600198000000000000315011133255680304044436001980000000000003150111348267203040444360019800000000000031501113482672030404443600198000000000000315011134826720304044436001980000000000003150111348267203379444360019800000000000031501113482672024334443600486000000003000015010930048020063144436001920000055830000100111491097602286444360062300001443450221501115526072020174443600623000014274502215011147072450046644436006230000081145022100109494337100400444360062300000811450221501115578634003894443600623000009874502215011150043910000044436006230000000745022150109450117600000444360062300000085450221001114639465)
 (.leaf 1011444360062300000639450221501113325568033794443600198000000000000315011134826720337944436001980000000000003150111348267203379444360019800000000300001501113482672033794443600198000000003000015011134826720337944436001980000000030000150111348267203379444360019800000000300001501113482672028234443600198000000003000015011134826720282344436001980000000030000150111348267202992444360019800000000300001501113482672028144443600198000000003000015011134826720295944436001980000000030000150111348267202979444360019800000000300001501113482672030874443600198000000003000015011134826720320044436001980000000030000150109350421702290444360019800000000300001501113745488))
 (.node 1 (.leaf 3102444360048600000000300001501113482672015054443600486000001393000015010935042170108744436001570000042730000150111487940000186444360062300000558450221501095625962005414443600623000001944502215011153574940045844436006230000001645022150109533007500352444360019800000000000031501095227216031894443600198000000003000015011134826720318944436001980000000030000150111348267203189444360019800000000300001501113482672009224443600072000007073000010010956774320186344436001000000029630000150111507738503614444360062300001547450221501114540518004584443600623000000004502215010966819100362444436001980000000000003150109450041203189444360019800000000300001501113482672)
 (.leaf 3188444360019800000000300001501113482672031884443600198000000003000015011134826720310244436004860000000030000150111348267203102444360048600000000300001501113482672023344443600486000000003000015010945004120116344436001000000055830000150109537581201180444360062300001025450221501114086655007434443600623000008054502215011149375390091244436006230000086745022150111458477201063444360062300000322450221001113325568031884443600198000000003000015011134826720318844436001980000000030000150111348267203115444360019800000000300001501113482672030774443600486000000003000015011134826720310244436004860000000030000150111348267202334444360048600000000300001501094997115)))
 (.node 2 (.node 1 (.leaf 1478444360062300000516300001001094997115018444443600623000014354502210011155051600380244436006230000154745022150111456965900881444360062300000021450221501114641644003384443600623000001104502215010954928370327244436001980000000030000150111348267202278444360019800000000300001501113482672023204443600198000000003000015011134826720245044436001980000000030000150111348267202725444360019800000000300001501113482672025814443600198000000003000015011134826720313144436004860000000030000150111348267203200444360048600000000300001501113846756023094443600623000001303000015010954928370162544436006230000133945022100109732250300658444360066400000557450221001114841153)
 (.leaf 595444360062300000567450221001114423492010734443600870000010924502210011145245220090344436008700000107445022100111519657502506444360002400000898450221501114297251012624443600623000005092503215011142981780031244436006230000064445022150111576334900457444360062300000831450221501114536032001604443600623000005584502215011150115040330844436001980000000030000150111332556802680444360019800000032300001501113325568023784443600198000000293000015011133255680218044436001980000000030000150111332556802409444360019800000000300001501113482672027554443600198000000003000015011134826720275544436001980000000030000150111348267202781444360019800000000300001501113902984))
 (.node 1 (.leaf 2781444360019800000000300001501113902984027814443600198000000003000015011139029840278144436001980000000030000150111390298402781444360022600000000300001501113902984027814443600198000000003000015011139029840318644436004420000000030000150109598754303200444360048600000000300001501113874415031024443600486000000003000015011134826720310244436004860000000030000150111348267203102444360048600000000300001501113482672031024443600486000000003000015011134826720310244436004860000000030000150111348267202309444360048600000000300001501095987543015674443600486000004743000015011133255680104644436006270000046845022100109749500401543444360002400000831450221501114649693)
 (.leaf 2371444360002400000992450221501098722322028704443600221000014904502210011154135600223544436000240000095245022150111523994802502444360062300000589250321501114173120031864443600486000000003000015011139324490327744436004860000000030000150109648119303137444360048600000000300001501113482672031834443600486000000003000015011134826720317844436004860000000030000150111348267203200444360048600000000300001501113902984023094443600486000000483000015011139029840230944436004860000000030000150111348267201105444360062300001379300001001113325568011884443600870000006224502207011151746280127344436006050000055745022070111450347201559444360087000000516450220701098953062)))))))
 (.node 32 (.node 16 (.node 8 (.node 4 (.node 2 (.node 1 (.leaf 1046444360017600000500450221001115381149015594443600176000004364502210011158035070155944436001000000051845022100109813099300280444360017600000470450221001098174942032634443600024000010454502215011144163860300744436000240000095245022150111453904502656444360062300000626250321501116261659016184443600623000005792503215010989157210161844436006230000036025032150109831171303186444360048600000000300001501113962796031864443600486000000003000015011134826720318644436004860000000030000150111396279603200444360048600000000300001501113932449031024443600486000000003000015011134826720056444436006230000051830000150109697375100320444360062300000401300001501113325568)
 (.leaf 1559444360002100000529450220701099047434015594443600669000005004502210010988377000155944436004500000046845022100111587311201559444360041300000644450221001099091521008354443600848000008864502210011154696730103644436008700000103045022100111488728602145444360087000001030450221001099580794027814443600486000000003000015011139940110266144436004860000000030000150111399401103186444360048600000000300001501097465178032714443600486000000003000015011134826720324844436004860000000030000150111348267203200444360048600000000300001501113962796008594443600017000003304502215011152374660163544436008700000089845022070109933493301559444360041300000481450220701099209997))
 (.node 1 (.leaf 1559444360035700000805450220701098978506024724443600413000014274502207011159339930200344436008420000135445022070111527775501007444360087000001379450220701115600050026614443600486000000003000015011140260790318644436004860000000030000150109795543803249444360048600000000300001501113482672032644443600486000000003000015011134826720320044436004860000000030000150111348267203200444360048600000000300001501113482672032004443600486000000003000015011134826720320044436004860000000030000150111348267203200444360048600000000300001501113482672032004443600486000000003000015011139940110320044436004860000000030000150111399401103200444360048600000000300001501113994011)
 (.leaf 3102444360048600000000300001501113482672031024443600486000000003000015011134826720310244436004860000000030000150111348267202396444360048600000000300001501114026079023964443600486000000003000015011134826720160144436004860000002130000150109795543801341444360062300000700300001501113482672011334443600623000003583000015010979554380166944436000170000091645022100111558673002485444360070400000936450220701099717522023664443600176000008504502210010997735150155944436000260000083145022100111523317301559444360002600000774450221001115818054015594443600870000014794502210011150684970155944436008700000133945022070109959698902067444360087000001261450220701115757179)))
 (.node 2 (.node 1 (.leaf 2400444360087000001379450220701099499291016784443600623000015676251510011145002890307544436000260000101745022100109976693901998444360006900000928600161501099714314022404443600026000010395751715011147511600318644436004860000000030000150111405898503186444360048600000000300001501098444491004804443600623000005893000010010984444910078344436000170000064445022100111499720500841444360001700000850450221001115987138019614443600870000009784502207011150718180190844436008240000107445022100109984454201559444360096400001379450220701115928667020674443600944000014354502207011000357220186144436008700000151045022100111520042900535444360062300001540625151001099777372)
 (.leaf 1648444360062300001357625151001099980639026724443600623000011014502215011144691490271044436006230000102545022100111478878601048444360062300000539600161501114822912020234443600026000008735751715011157742100243844436000260000089157517150111488301800385444360002600000537575171501115017031031864443600486000000003000015010989199750239644436004860000000030000150109891997500601444360001700000589450221001114224885007244443600017000007744502210011156157890157844436008700000097845022100111486315801559444360094800001379450220701100131296028954443600627000013964502207011002365190036644436006230000139962515100110004807301657444360062300000952450221501114262593))
 (.node 1 (.leaf 1224444360002600001023575171001115221043025294443600026000009675751715011003778370084544436000260000050457517100111528904900706444360002600000616575171001115904144004514443600623000006916001610010999925450361044436004860000000030000150109916324203037444360048600000037300001501113482672006514443600486000001903000015011140927120103244436001130000059547521100110013944000765444360057600000632525191001100031960024664443600983000015104502210011147516920221044436008700000106545022100111497308101870444360083500000481450220701100544897023664443600870000013794502207011006335010236644436008700000139645022070110026307202366444360093700001396450220701100807525)
 (.leaf 1559444360087000001379450220701100392388016434443600916000013964502207011003943330260144436008700000144345022070110095965202601444360087000001417450220701100209995030064443600870000014354502207011005810360158844436008700000151045022070110095576202042444360087000001563450221001115172224004314443600623000014156001610011002626120152244436006230000109370012100110065324801702444360062300001045450221001100273757022854443600623000009784502210011146201730206544436006230000106545022150111504742903019444360002600001098575171501100284965012924443600033000005246001610011151224820061844436006230000091160016100110075734700318444360062300000726600161001115743367))))
 (.node 4 (.node 2 (.node 1 (.leaf 9444360062300000387600161001115813382000004443600623000003146001615011153200070165944436004860000006830000150109940584903610444360048600000000300001501114162571030374443600486000000003000015011141625710303744436004860000000030000150109940584903037444360048600000000300001501113482672003444443600623000001053000015010994058490133844436002930000076050020100110105183201903444360057600001377525191001116505221028884443600993000015424502210011153733520158244436010870000150145022100111552443903652444360087000001551450221001114666846028284443600870000014654502207011162937590236644436008700000141745022070110099447702366444360097800001470450220701100636981)
 (.leaf 1559444360097800001396450220701100788502023664443600983000014174502207011161154030164344436008910000146545022070110096178201643444360088800001435450220701115268275016434443600845000014174502207011006248980171744436008490000051645022070111602941002601444360087000001427450220701100709680030064443600870000014704502207011003103420274644436008700000145345022070110052455002746444360087000001443450220701100620984030894443600870000014904502207011010349370070744436006230000124755018100110088323501731444360062300001025450221001100793590017314443600623000010744502210011005311640319544436006230000110145022100111419140702657444360062300001134450221001115121480))
 (.node 1 (.leaf 3436444360062300001140450221001114297119023674443600026000009415751715011007451990076044436005580000084160016100110100048200000444360062300000112600161501115958502000004443600623000001226001615011151042590203444436004860000000030000150109964778102431444360048600000000300001501114198670036104443600486000000003000015011141986700361044436004860000000030000150111348267203610444360048600000000300001501114198670036104443600486000000003000015011141986700361044436004860000000030000150111419867003610444360048600000000300001501114198670036104443600486000000003000015011141986700303744436004860000000030000150109964778101776444360062300001180300001001113325568)
 (.leaf 2071444360060100000977525191001100987195022194443601029000015244502210011008269810295644436009960000151845022070110094813203282444360099800001490450220701115444238023664443600870000014354502207011164030100164344436008450000055745022070110072818100000626360087000001435450220701100654047000006263600505000008504502207011009859400512644436006640000119945022070110074031402856444360087000001427450220701100732047032654443600870000015284502207011008840540305644436008700000149045022070110114999202029444360062300001140450221001100658110023874443600623000011104502210011005875360073044436006230000057960016100111478525801680444360062300001061600161001101106778)))
 (.node 2 (.node 1 (.leaf 2924444360002600001080575171501115135786020084443600026000010525751710011011424600128044436006230000043160016100110110779103610444360048600000000300001501113482672036104443600486000000003000015011142355270361044436004860000000030000150111423552703610444360048600000000300001501114235527033704443600486000000003000015011142355270303744436004860000000030000150111348267201785444360048600000000300001501114235527030374443600486000000003000015011141986700018444436006230000014630000150111423552700106444360048600000105300001501113325568007934443600623000005433000010011133255680354944436006230000137930000070111332556801944444360061700001487525191001116022522)
 (.leaf 1387444360061700000896525191001114848941027494443600617000014625251910011153069100355744436009290000152445022070111493600903778444360087200001510450220701101115396035024443601077000014904502207011157302730326244436010960000152845022070111604285102929444360093600001354450220701101099823023664443601052000013794502207011015568080164344436008450000059445022070111582323001643444360080700000831450220701100907469017174443600714000008674502207011155838250171744436000110000086745022070110087581801717444360000700000500450220701100951404024454443600845000010374502207011007782151059241136008450000097845022070110139531901774444360087000001092450221001115692772))
 (.node 1 (.leaf 3928444360087000001501450220701114758098028564443600870000014274502207011010824140305644436008700000149045022070110105256002550444360080700001556450221001114197091013594443600623000011127001210011014236720175444436006230000104252519100111630323102029444360062300001056450221001101522299017184443600623000010654502210011012819830114644436006230000093645022100111519440100356444360062300000509600161001114571474020084443600540000010276001610011152324240128044436004130000067660016100110145086200996444360062300000647600161001101133595009454443600623000005396001610011155770550361044436004860000000030000150111348267203218444360048600000000300001501100129538)
 (.leaf 695444360048600000260300001501113325568036424443600871000014904502207011012795680376644436008700000149045022070110217302302827444360091600001417450220701101563839023664443601001000014354502207011161959530236644436008450000142745022070111545485602366444360094900001396450220701115888627023664443600853000005574502207011011405890164344436003220000061545022070110185214001643444360002100000500450220701115838619024454443600845000009784502207011158308180244544436008450000095245022070111547969310592411360084500000843430230701101333733105924113600845000007414502207011012155230512644436008450000128345022070110148554000568444360079000000741450220701115297179)))))
 (.node 8 (.node 4 (.node 2 (.node 1 (.leaf 1426444360087000001453450220701115523339026304443600870000014434502207011158406970178344436008530000141745022070110134565202856444360086500001470450220701101288897027224443600870000015514502210011147212720369944436008700000152445022070111530349003463444360087000001535450221001115053836001104443600848000015424502207011016579790000044436008480000151845022100111572965800162444360084800001501450221001114618986013104443600623000010254502210011153763260175444436006230000103745022100110158378802317444360062300001092450221001116167839004724443600623000005396001610011019957890055244436006230000044060016100110189485102087444360062300001183625151001114539846)
 (.leaf 75444360062300000294600161501101161088001044443600623000003146001610011153241320010744436006230000020060016150111589902900000444360062300000170600161501115388451022594443600486000000003000015011003693290178544436004860000000030000150110036932900553444360062300000102300001501113325568042214443600293000030095501810011157952700363944436008770000149045022070110161868803305444360088500001501450220701101829251030124443601080000014654502207011017955820325544436008670000150145022070111579281702366444360100100001490450220701116152445024454443600018000004364502207011014825610244544436004770000095245022070110171234702445444360084500000827390250701101471180))
 (.node 1 (.leaf 10592411360084500000770390250701101568110051264443600183000009874502207011158708110170744436004860000130045022070110185746103265444360070900001379450220701101661044026754443600845000013004502207011017335530267544436008370000152845022070110094895002675444360087000001417450220701115765420000004443600848000013794502207011017415830002544436008480000145345022070110166906600025444360084800001479450220701101678539000054443600848000014704502207011160647190008344436008480000143545022070111538692700061444360084800001427450220701115063919001964443600848000014354502207011146034960232644436008360000138341024070110201318801638444360062300001017450221001102050555)
 (.leaf 1609444360062300001045450221001101698717013314443600623000010374502210011019912240044644436006230000066560016100110159984200302444360062300000472600161001115956455008714443600623000006056001610011155992640000044436006230000020060016150110185508803370444360048600000000300001501113482672029484443600486000000003000015011143504770294844436004860000000030000150111348267202948444360048600000000300001501114350477006744443600486000000883000015011006083690333744436000280000394555018100111516280302695444360051700002026550180801115035410058094443600689000045005501807011022569950744144436007140000768452519100111406866803639444360087800001501450220701101954874)))
 (.node 2 (.node 1 (.leaf 2759444360089800001518450221001115985382033224443601033000014654502207011026251000332244436008700000143545022070111595111810592383360018300000644450220701102132503016434443600026000003674502207011017451690164344436000260000026745022070110143757201643444360002600000296450220701101481572016434443600055000007414502207011016631810164344436007930000042645022070111596990001643444360000000000529450220701115841257031814443600845000009164502207011017551621059241136008450000073443023070111512535905126444360084500000783410240701101978443051264443600845000013004502207011020279800512644436000050000043245022070111599328401783444360001400001180450220701115880847)
 (.leaf 2675444360048600001300450220701102242490000004523600442000011804502207011015700930137244436007190000063945022070111559957401217444360086700001524450220701101686736028524443600704000015474502210011153176440130244436008700000141745022070111593907801550444360082800001396450220701114671977000004443600848000012174502207011158165260000044436008480000118045022070111568530600000000360084800001245450220701102223641000124443600639000005275002007011022673020000144436003840000037550020070111551196002425444360084500001416390250701101803149008294443600623000008504502210011155914480175844436006230000101745022100110261418001337444360062300001045450221001102516843))
 (.node 1 (.leaf 1864444360062300001030450221001102306251014004443600623000010454502210011021505230078044436006230000061957517100110197823000295444360062300000431600161001114485575010574443600623000010686251510011020928370095244436006230000089460016100110237770900000444360062300000129600161501114918468029484443600486000000003000015011134826720294844436004860000000030000150111348267202024444360048600000000300001501100846641034114443600656000030095501808011022224790470444436006890000445555018070111575478000000444360068900004189550180701102040855000004443600689000046355501807011158896620232244436008370000060157517070111632553802250444360106800001442475210701102292383)
 (.leaf 3191444360087900001470450220701116030299034874443600871000015354502207011019261480379544436008880000144345022070110237360603322444360087000001470450220701116024296029474443600870000014534502207011021342050294744436008780000142745022070111582862702947444360087200001354450220701102262857105923833600221000001814502210011017520270164344436000260000026745022100111597378501643444360001100000831450220701102264564016434443600004000008984502207011161042990164344436008450000091645022070110253444401643444360081900000500450220701102381811024454443600793000004514502207011021355970478344436008450000042645022070111538538103181444360084500000805450220701102213270))))
 (.node 4 (.node 2 (.node 1 (.leaf 10592411360084500000783410240701102028578051264443600845000008133702607011152244490512644436008450000133945022070110287273105126444360000000000432450220701115471859017834443600014000005894502207011021667370000044436002470000114945022070110190517800000444360065600001115450220701116106272000004523600018000009874502207011021492090000045236001040000119945022070110217890100000452360061700000898450220701115685762000004523600782000010744502207011023080110137244436008450000099245022070110265976701396444360086700001453450220701102853466017894443600917000011804502207011022435780050044436006890000077445022070111455625800000626360063900000728500200701102128089)
 (.leaf 360084800001230450220701115179266000004443600782000012034752107011147539990000044436006390000125250020070111507979000011444360034900001240525190701115637892000124443600024000011785501807011151551160036544436000240000067355018070111588408201492444360002400001075550180701116059408014564443600836000013166001607011152193620088044436007900000139043023070111594203402425444360066900000992450220701115286067025594443600026000009415751710011142444840085044436006230000061362515100110221139201895444360062300001126600161001101890536011194443600623000009286001610011148457410294844436004860000000030000150111439019702948444360048600000000300001501113482672))
 (.node 1 (.leaf 10592044360034100004753625150701115712278000004443600689000046505501807011156863281059244436008710000565155018080110267838206501444360066422885340550180801115459714065904443600714000051125251910011158013390225044436009040000097845022070110249644303890444360088800001453450220701102642740029474443600951000005434502207011025632821059238336002070000012445022100110234929501643444360001400000244450220701101903448016434443600005000008054502207011159522260478344436008450000095245022070110222068004783444360084500000850450220701102461797031814443600845000005913702607011159823201059241136008450000074039025070110235076305126444360084500000758370260701102191464)
 (.leaf 5126444360002800000261450220701102435899000004573600026000004704502207011026656300000045236000140000103845022070110276699800000452360030700000436450220701102454271000004523600845000014174502207011028034170137244436008450000145345022070110294633901217444360084500001428430230701116388748006494443600104000004514502207011021513310064944436000160000019945022070110230329200931444360010400001076450220701102290996006664443600032000001994502207011025354180066644436001040000029645022070111604789601193444360079000001339450220701115144708002084443600848000011804502207011148745930000048836007820000078047521070110285692500238444360078200000648475210701114905072)))
 (.node 2 (.node 1 (.leaf 444360084800000644450220701114881349000004443600771000014894752107011016355440000044436006230000145150020070110187087301670444360062300000936450220701102913139023764443600623000009924502207011026541510149144436006230000055250020100111644047302148444360062300000642575171001114966768027944443600623000007205751707011150038960120244436006230000058960016100110273811900546444360062300000539600161001102854733017034443600623000007326001610011024603740239844436004860000000030000150111443059003610444360048600000000300001501101320808028654443600486000000003000015011134826720247044436004860000000030000150110132080802049444360022100000955300001501113325568)
 (.leaf 2293444360014400002444300001501113325568019634443600006000011193000015011133255680438044436004310000341855018100111582840110592044360002800002026550180701102164021105920443600192000046176001607011021969210161644436008850000564755018080111506045900000444360100400006241525190801115753683105924203601004000048465251908011149699331059244436003410000521060016080110276084900000444360066400005943550180701115348842041464443601086000033324502207011142019070342744436010860000152445022070111464453303417444360104800001464475210701102486004029414443600704000014376001607011033311070225044436006170000099152519070111545100901580444360094800000557450220701102981726))
 (.node 1 (.leaf 2002444360087100001453450220701103241323031914443600870000014434502207011159273630406244436008700000149045022070111641136903890444360087700001524450220701103005584029474443600890000014174502207011029821650000050536001760000036745022070110247050504783444360084500000825330280701102894206051264443600845000008704102407011027029400512644436008450000132145022070110322339005126444360001700000172450220701103186994000004573600011000012834502207011158036050023844436006170000111545022070110281041700000444360000400001230450220701102537433000004523600845000014654502207011164029620000049136008450000137945022070110309756400000491360084500001386410240701115835642)
 (.leaf 444360018300000426450220701115326616011104443600862000014354502207011158643680108144436008700000052945022070110271818101081444360002600000357450220701103058557000784443600026000005014502207011023861160010244436008480000144345022070111542347400086444360002400000381550180701103102456000004873600215000002335251907011150039210133544436006230000346343023080111413757610592295360062300000867450220701103134572105922953600623000010254502207011029057690266244436006230000102545022070110311390602669444360062300000694600160701115751465024474443600623000007036001610011159960550241344436006230000069460016100111574784601928444360062300000710600161001115313998))))))
 (.node 16 (.node 8 (.node 4 (.node 2 (.node 1 (.leaf 1583444360062300000658450221001115644851021954443600623000010815002010011149298820123144436006230000065560016100110307339000801444360062300000911600161001115074920014574443600623000006276001616011025245280361044436004860000000030000150110155666603370444360048600000000300001501113482672032184443600486000000003000015011145133250315244436004860000000030000150111348267202470444360005500000000300001501101556666000004943600028000027225501810011027595980000044436000280000393257517070110277831706331444360033400005377600160801103023843063314443600400074258426001608011022484330665944436008360000503452519070110276589804368444360095300005436525190701114266780)
 (.leaf 3417444360069800002526525190701116024196033114443600669000014685751707011037836440439744436005280490205952519070111511149203027444360087200000516450220701103261550029474443600867000014354502207011030014610294744436008580000221745022070111600769202947444360000700000383450220701102715816000004443600017000003574502207011157792630000044436000000000036745022070111476786401643444360001300000345450220701102722883047834443600845000006373302807011028132220000044436008450000058439025070110244455205126444360001500000172450220701103222611002384443600013000005584502207011033402840000043036008450000149045022070111539971200000452360084500001412430230701115802817))
 (.node 1 (.leaf 452360084500001427450220701115441818000004443600845000012614502207011160404420108144436002210000034545022070111544224300786444360002600000345450220701102622503000744443600026000001814502207011029678720156644436008450000123045022070111671880101244444360090400001300450220701103414507009984443601079000012834502207011161148970034744436007790000229747521070111571969900000487360066400000441500200801116063321000004873600845000006354502207011032594300000048836008420000130945022070110332153800000444360070400001226500200701103309326073414443600623000011014502209011139998830734144436006230000151845022090110247704507341444360062300001524450220701102615652)
 (.leaf 811444360062300000928600161001103289208012764443600623000006276001607011033994140200744436006230000062760016070110342186602825444360062300000686600160701115861218020254443600623000007196001610011038466720123144436006230000068660016100111506388000566444360062300000490600161001104046802005894443600623000009116001610011033379780093344436006230000097460016100110328096501457444360062300000686600161001114669665029864443600486000000003000015011017916840284644436004860000000030000150111451332503610444360048600000000300001501114513325036104443600486000000003000015011145133250337044436004860000000030000150111348267204866444360056700003989575170701103118186)))
 (.node 2 (.node 1 (.leaf 494360002800000887550181001116320089105924203601030000058555251908011038726610582344436006890000617055018080111537188405149444360095500005923525190701115712978031544443601006000063005251908011031168140506744436006560000627457517070111496149700000444360083900008067525190701103579870035534443600919000076375251907011037095531059244436006890000380160016070111617082503027444360083700001568500200701115716824030274443600890000016504752107011031950350352044436008850000149045022070111571247604217444360087000001479450220701103598267038234443600845000026494502207011033297270000044436008450000105645022070110338535500000444360000700000357450220701102715149)
 (.leaf 1643444360040000001283450220701116278407016434443600845000009524502207011034717610478344436001040000079743023070110292106200000444360081900000577370260701102971052051264443600845000007403902507011027344990512644436008450000089845022080110307587305126444360084500001300450220701103674404051264443600008000001554502207011031133230023844436000050000064445022070110338865800000444360001100000501450220701103323026000004443600198000012174502207011030787850000057936000160000046845022070110328773500000444360002200000322450220701102961188007864443600026000004164502207011035361400078644436001920000045145022070110316225000786444360002600000383450220701116754549))
 (.node 1 (.leaf 596360006900000296450220701115642528006044443600870000005734502210011150519700000062636008390000309345022080110375974200000487360080700001839450220701103231660002384443600807000021524502208011032361670023844436008070000210345022080110348885300000444360076600001381625150801116401745000004443600777000009395501807011158911930000044436011410000138039025080110310733800000521360107700000653410240701113689800000005213601141000009983902507011032880430000052136008350000065560016070111614360900942444360062300000694600160701103293524000004603600623000007036001610011154081140000046036006230000065560016100110326140101581444360062300000647600161001115877910)
 (.leaf 1480444360062300000694600161001103337626003704443600623000005246001610011162796220298644436004860000000030000150111455563102986444360048600000000300001501114555631029714443600486000000003000015011134826721059237036002210000495557517070111610250700000444360082400006076625150801103407570062684443600689000054115501808011032282720612344436006170000805952519070111524838300000444360060500007244550180801116356177035534443601007000086824502208011036831410355344436006340000749755018070110328865110592444360028300002587550180701116400067105924443600709000015346001607011036141661059244436008700000437445022070110295461800000444360000300000345450220701115223274))))
 (.node 4 (.node 2 (.node 1 (.leaf 490360001700000345450220701102959588004204443600005000003834502207011027881200164344436000180000034545022070110328933804783444360000000000850450220701103323203000004443600024000008054502207011158592660102444436008450000078341024070111489116603347444360084500000886450220701103351060033474443600845000010254502208011165652680512644436008420000139645022070110380995705126444360079300001076450220701103451025051264443600010000001724502207011159976420023844436000000000107645022070111492796700000507360070400001149450220701115470159000004443600011000001054502207011038463950000045236000000000089845022070110354474100000452360000100000857450220701103470218)
 (.leaf 444360081900001453450220701103479647000004443600845000014654502207011166556740000044436007770000086745022070110361226500000579360022600000543450220701115429350047474443600157000004264502207011032248670000044436000050000021845022070110320949300000527360002200000383450220701116214261007864443600400000004024502207011155428520078644436000260000035745022070110343060000795444360002600000451450220701103432006008704443600939000005164502207011038433410078544436008070000359945022070110380919200000487360080700003599450220801103425162002384443600807000032264502208011039150650023844436008070000305145022080110406284400000444360061700001357625150801115377385))
 (.node 1 (.leaf 493360061700001259625150701116077982000004443601115000013974102407011160516860000044436011010000143141024070110334829700000444360114100001586390250701103589637000004443600623000010696001607011038923180094244436006230000110760016070110329990100942444360062300001140600160701114929748026104443600623000009906001607011158024680000054336006230000074760016070110333582302711444360062300000803600160701114711385011514443600623000007786001610011145157380154044436006230000069460016100111507031604079444360062300001201625150701103175867014574443600623000007636001610011157385990003044436006230000040860016100111567167200000444360062300000351600161001114887269)
 (.leaf 2986444360048600000000300001501114598539029714443600486000000003000015011022591260186244436004860000150130000150111332556801415444360022100000614300001501113325568025464443600006000016063000015011133255680277544436000060000178330000150111332556804589444360068917873138525190701103421982105922993600576000042985751708011033740430583844436008420000579455018080110463103107139444360071400006299550180801104035715055884443600714000052555501808011152468400583744436009510000878752519080111594043500000444360107300008822450220801103876632043974443600621000033914752107011040297441059244436006390000441952519070110437832704174444360068900004054600160701103395346)))
 (.node 2 (.node 1 (.leaf 4039444360087700004372475210701104052620105924443600819000044955751707011039798310382344436004670000457967513070110380100800000444360000000000416450220701116275158004204443600005000003574502207011032223340164344436000000000074145022070110404203701643444360000000000886450220701103701004000004443600000000007744502207011156085200181544436008450000095041024080111621188203347444360084500000950410240801104771163051264443600845000012844102407011163349930512644436000110000033645022070110356605800238444360001300000518450220701115454004000004443600021000004364502207011036499020000045236000260000015745022070110372577200000444360040000001245450220701116528831)
 (.leaf 444360001900000614450220701103577162047474443600010000011804502207011151063110000057936000070000034545022070111628672200000444360002500000383450220701115799062000004443600000000003834502207011159768600150044436008390000038345022070111617163900454444360086200000296450221001115304068012574443600862000011804502207011157610020126844436007820000119945022070111543138600360444360080700002538450220701116010126000005603600807000031614502207011151719790023844436008070000357445022080111615897400238444360070400002255475210801103844371002384443600766000021614752108011038046950000044436008350000069160016070111640969800000521360114100004103390250701103499365))
 (.node 1 (.leaf 453360085800000907625150701115005944000004923600623000011166001607011034385210180744436006230000076360016070110364072410592401360062300000732600161001115919470013224443600623000006946001610011036205540168944436006230000068660016100111558039303160444360062300001201625150701103155881026274443600623000011103000015011024915150298644436004860000000030000150111348267202986444360048600000000300001501114642031029864443600486000000003000015011146420310298644436004860000000030000150111464203102971444360048600000000300001501102491515060844443600027000046995002010011150268830709644436003340000480152519100111511522505287444360064300003935550181001116021125)
 (.leaf 2445444360022100003949575170701103943228024454443600477000045215751708011040926851059239636009760000577752519080110389006605838444360070400006086550180801103785124062644443600940000065065501808011041457121059244436005850000892557517080110443132210592444360096800007495450220801104359754105924443600862000088766251508011157043441059244436006430692482345022080110430689210592444360062300004367600160801104490220036754443600698000044026001607011039839840000044436005920000447067513070111638978800000444360077100004532575170701104952391000004443600865000044985251907011036843731059244436007990000445457517070110430215400000444360057600004251600160801104768330)))))
 (.node 8 (.node 4 (.node 2 (.node 1 (.leaf 444360081900000451450220701104679285004204443600002000003834502207011159125880042044436000000000042645022070111593752804142444360093700000952450220701104180748041424443600000000008864502207011042012000102444436000000000077445022070111626076801815444360084500000741450220701103585650051264443600845000012933902507011164539540512644436008070000137041024080110440593005126444360084500001195390250701104147592051264443600004000001864502207011039206951059234336000000000090145022070110424001204735444360000400000987450220701115030094000005073600000000007904502207011044239890000045236000250000026745022070110410758300000452360001800000987450220701115116392)
 (.leaf 444360000600001010450220701104687748000005793600010000003954502207011039741230000052736000090000024445022070110375989900420444360035700000468450220701103968536015004443600862000013544502207011046052560083344436008700000046845022100111510329700513444360063400000383450221001115345068013554443600709000031844752107011035750300051444436008070000250145022070110447531100000560360038400003125500200801104566263000005603600807000016854502207011040934450023844436007140000248247521080111607841100238444360079900001612475210701104153431002384443600782000023605501808011041243950203744436008350000092860016070110467616702037444360083500000652600160701116211382))
 (.node 1 (.leaf 493360064300000730625150701115139528000004933600803000002436251507011151237790000050236007710000054662515070111533647400000444360063400003984450220801104327947000004443600782000031905501808011037395990217644436006230000111660016100111506713902005444360062300000739600161001114609833031604443600623000011146251507011157916820719244436002260000561250020100111502391906094444360079000005794550181601114782966058504443600872000051406251510011159510270585044436000550000425850020100111504226004397444360006400004117575170701116110419064194443600803000060766251508011043305921059239636010510000600152519080110396579604397444360071400006299550180801104410239)
 (.leaf 7986444360055800007652575170801116178160079864443600558000078405751708011152473020355344436009330000765652519080111619870510592444360099000007212450220801116442975105924443600621000043516001608011158036881059244436005920000443762515070110489660210592444360084200004439575170701104303030036754443600848000044755751707011149396690000044436006170000456165014070110517919010592444360084400004406500200701115927970105924443600576000043356001608011046189280000044436005760000652960016080111633658000420444360000000000426450220701114678411018154443600845000008504502207011163733570512644436000090000022945022070111618789010592343360000500000518450220701104149753)))
 (.node 2 (.node 1 (.leaf 10592343360000900000857450220701115351250000005073600007000010104502207011151379500000050736006270000119945022070111531999600000452360001900000267450220701103967440000004523600011000014354502207011162261520000044436000180000043645022070110455431300000444360061700000614450220701104079767000004443600016000006444502207011039788810000057936000010000038345022070110434008300000508360001100000345450220701104224874007484443600779000006154502207011149678890293644436008070000408045022070111484561000000533360080700001557450220801104373318020374443600835000014346001607011043863400000049336008350000023960016100110431327004397444360083500000317600161001104115078)
 (.leaf 521360114100004175390250901103647540000004443600858000029606251507011149554180000053936006230000117760016070110371924700734444360062300001116600160701115979746105924013600623000007786001607011042163330211644436006230000066560016100111612531102826444360062300001775300001501102953540035844443600486000000003000015011147758320256844436004860000000030000150110295354005644444360079000004952625151001104280093053854443600689000041525251910011046320251059235736009360000608655018080110461874407981444360055800007764575170801115434909004204443600944000086415002008011052163600000044436009520000720750020080110476616203553444360094400008799500200801104862046))
 (.node 1 (.leaf 10592358360038400003242575170801116339743105924443600682000046546251507011046076220000044436008720000447752519070110477773300000444360082800004475575170701104774176035554443600878000044065002007011049038211059244436008960000447752519070110465786200000444360083600003960450220801115389572000004443600845000004264502207011153277700000044436000070000029645022070111587995204142444360000000000481450220701104823015051264443600848000013704102403011157509850512644436005280000056541024070110424317205126444360001000000261450220701116259179051264443600008000009014502207011049579640000055536000140000111545022070110462627400000469360000700000857450220701115737938)
 (.leaf 579360000500000267450220701115685053007624443600007000003224502207011151178270000052736000010000034545022070111600216302212444360085604271396450220701115764951028544443600807000036754502207011152579290023844436008070000372445022080111625898100238444360080700002126450220801104288030000005333600549000040145002008011162380990023844436008070000206345022080110458604005697444360081900002283575170801105131863035544443600835000017116001608011163567740439744436008350000031760016100111596047200000444360083500000419600160701104788755036184443601141000042223902507011044372900023844436008580000255562515070110462709300000626360077700001172625150701104228613))))
 (.node 4 (.node 2 (.node 1 (.leaf 444360062300000787600160701115959524024264443600623000007036001607011045950820205044436006230000071960016100111585345202708444360062300000657550180701104405483014574443600623000006476001610011162300430072744436006230000056460016100110511107300000444360062300000188600161001115630393035844443600486000000003000015011031831400256844436004860000000030000150110318314005729444360094600005589625151001104440844058134443600904000053416001610011047246600593344436006890000488152519080110534085704397444360068900006770600160801116175235043974443600689000069415501808011043985070650344436006890000557055018080111647495607383444360071400006480550180501104959905)
 (.leaf 10592357360102500006064525190801104664418043974443600714000060865501808011047294790311244436008320000761765014080110500091410592444360094900008694500200801105079836105924443600933000087625251908011161940441059244436002210000043245022100110525934910592358360060100005109600160801104856859105923583600682000071655751708011049163111059244436008480000495455018070111627748100000444360085300004440550180701104788034105924443600898000043165751708011050274021059244436005760000762060016080110499157510592444360068600007766525190801105676982105924443600807000047434502208011056186410042044436005580000045145022070111614551904142444360084500000481450220701116216213))
 (.node 1 (.leaf 4195444360084500001238390250701105097143051264443600845000008534102403011044236060512644436008450000136943023030111650847505126444360080300001443450220701105427147051264443600793000007533902507011153616770512644436000050000036745022070111545224305126444360000500000857450220701104807998000004523600000000009014502207011046124780000045236000000000070745022070110452301900000444360000600000470450220701104857509000004443600349000008674502207011153853200000044436000000000064445022070110465194700000579360000100000470450220701104552728004204443600617000005164502207011048411350078644436008450000143545022070111567416702578444360080700003349450220701115870136)
 (.leaf 444360080700003898450220801105401253000005573600807000040804502208011048891070023844436008070000437445022080110486011700238444360051700002489500200801116363759002384443600807000023424502208011047636710355444436008350000269460016080110486464603554444360083500002199600160801104590264005824443600835000007266001607011051355020000044436011030000410243023080110458725603618444360114100004238390250701115959890000002073601141000032783902507011047309190023844436008580000287462515070110508955400000000360085600002046625150701104957743007344443600623000008036001607011044458300073444436006230000111660016070111472567802859444360062300001134450221001114680698)))
 (.node 2 (.node 1 (.leaf 772444360062300000509600161001115164223010704443600623000004906001610011147099280640744436006890637650752519050111490100704397444360068900007234625150801115269185105923123600848000060015251908011152873231059244436010690000630052519080110518692806355444360071400006325550180801115737612056974443600935000077675002005011163931090569744436005760000788957517050110472177010592444360079900007813600160801105441721105924443600848000071595751707011050169771059237636008650000540355018070110502306603555444360082800004452600160701105542823035554443600848000045185751707011157202860000044436008450000459957517070110473604210592444360089800007877575170701104989438)
 (.leaf 420444360084500000468450220301104634763046774443600845000007834102407011164798250467744436008450000084439025070110536130205126444360052800001131410240701116313121051264443600004000005584502207011163451390512644436000000000022945022070110531737800000444360001100000901450220701104987486000004693600003000010384502207011048878530000044436000010000101045022070110478526500000444360001900001149450220701115635585007624443600008000002444502207011164559810076244436008370000044933028070110529852300420444360084900000543450220701104873439022294443600845000014534502207011051778510000055736007190000377145022080111493829100000557360080700004216450220801105340198))
 (.node 1 (.leaf 444360080700002218450220801104969128035544443600835000022946001608011057092291059218636008350000055060016100111619231200582444360083500000499600160701116098481000004443600858000029076251507011050660010073444436006230000079560016070110474180000947444360062300000726600160701115986363041184443600623000046423000010011036394320336844436004860000000030000150110363943202476444360048600000000300001501113482672017994443600486000009013000015011036394320531944436006890000603052519050111592472005748444360068919016254525191001105158828043974443600467000047626001608011049969550773044436007090000642152519050111507340607535444360071400007714525190501116489371)
 (.leaf 10592321360101300005855525190801105490446105924443600915000064195501808011158436641059244436007140000632555018080110531984305697444360093800007820500200501105452324046034443600576000087995002001011157073310451144436006560000773460016080110524997810592444360090404087760625150801116134391105924443600835000078106501408011154100171059227436007140000756360016080110573164210592444360079300007307550180801115873283105924443600901000073075501808011156124871059244436008980000778957517080111637392310592444360080700005406450220801105235984105924443600000000053384502208011054970970000044436000000000376345022080110512227300000444360015700000426450220301116221971))))))))
 (.node 64 (.node 32 (.node 16 (.node 8 (.node 4 (.node 2 (.node 1 (.leaf 420444360010400000416450220301105133972046774443600845000005004502203011052311730512644436008450000150145022070111633567505126444360084500001421430230701105705985051264443600845000013964502203011054182110512644436007140000137041024070110581521205126444360000500000199450220701116352418000004443600005000005584502207011053718710000044436006640000111545022070110529584400000531360001100001010450220701105497134000004443600008000010764502207011150692430000044436000010000085745022070111534452900000579360001600000199450220701116235149007624443600164000003954502207011162205530000044436007190000249147521080110525736800000563360017600003232525190801115322668)
 (.leaf 563360080700002422450220701105415734000004443600807000026434502208011058170170000059436008240000253845022080111453875300000594360083200002704450220801105338970000004443600835000026946001608011054315290023844436008350000278760016080111531082603555444360083500002193600160701116433980000004443600835000014006001607011054188690000058836011220000334239025070110524598700000444360114100003417390250701104979713000004443600832000036306001609011049043950000044436008580000294662515090110540376002445444360062300000719600160701116372407013934443600623000007786001607011159748220250944436006230000079560016100111470570204609444360057600002681600161001105434124))
 (.node 1 (.leaf 10592307360062700005389625150801105453181073264443600698000063265251905011164440521059244436007140000592352519050110586354710592321360084200006140525190801105546350105924443600714000062615501808011056623410569744436008530000771452519050111533123103949444360059200008726475210101115197525045114443600882017189846251508011056621550244544436007930000688445022010110586743904397444360074200007650600160101115748616000004443600878000077405002007011164696670471544436008670000778760016080111572979010592444360080700008336450220801106269538000004443600000000040224502208011164453900000044436008450000046845022080111500440605126444360084500001321450220301105528221)
 (.leaf 5126444360084500001379450220301116283623051264443600845000014434502203011156305630512644436008440000151270012030110577690305126444360000000000199450220701105422872000004443600000000006804502207011053501860000044436000000000107645022070111534112901914444360007200000386450220701116566000011284443600824000016564502207011055488160060644436007820000162945022070111469963600762444360082400000608450220701105334633015124443600026000003674502207011155331340072244436000260000029645022070110568788400755444360080700001563450221001114365493000004443600807000027724502207011167411290000055736000260000129055018100111637520510592000360083500003630600160801105474444)))
 (.node 2 (.node 1 (.leaf 238444360083500002940600160801116164069000004443600835000025146001607011053236730000058836010770000338041024070111599227003803444360085800002854625150701105396477007344443600825000026986251507011054611540000044436008580000118362515070110549876300000444360085800000745625150701105259731031094443600024000004164502210011151815430227744436000240000042645022100111459388703383444360048600000000300001501104091726030504443600486000000003000015011040917260488144436006890000278060016100110570561300000444360068900004409550180701114937968105923593600689000065806001608011054175531059244436007140000653352519050111377468010592444360077900006326525190801105794627)
 (.leaf 10592349360076600006135600160501105770459105924443600848000076265251905011059341990485944436007990000776260016010111666290310592444360083900007520475210101116587093024454443600973000070574502201011168322451059244436008250000877255018080111571620710592243360085300008492450220801116357183105924383600824000084785751708011164734341059244436009040000782045022080110561812500238444360090100007602450220701115688564002384443600832000079125251907011067607210471544436008960000741152519080111683412404890444360089600007650600160801105738792051264443600011000046764502208011151627470323644436008450000268145022080111512942603236444360084500002224450220801105625854))
 (.node 1 (.leaf 444360000000000468450220301105609737004204443600845000005294502207011057786410681444436008460000134843023030111555852104397444360084500001312430230301105999461050714443600845000012723902503011055263590512644436008450000133945022030110615143705126444360000800000296450220701105825487014044443600009000009874502207011152324640000044436000180000060945022070110557173200000444360000400000956450220701115738798019144443600334000021184502207011063412490076244436005760000046845022070110611083200647444360002600000322450220701115703873009884443600807000015514502207011056053040000055736008070000427045022070110590702500000563360002600003556550180701106230820)
 (.leaf 3772444360050500002029500201001106329011000004443600621000031434752108011152394680000044436000260000211955018080111642011100000444360083500001927600160701115097019105920003600026000034915501808011056952170000044436007900000296855018080111621403800000444360105000005568600160701105573340002384443600858000029376251507011055127860073444436008580000287162515070111526469200000538360066900000777625150701114920154021814443600643000007306251507011053614380241944436006230000075562515070110568860600336444360062300000787600160701114622918032074443600024000006584502207011055798310381544436006230000158330000150110431633102494444360048600000202300001501113482672))))
 (.node 4 (.node 2 (.node 1 (.leaf 1503444360048600000296300001501104316331044134443600689000028786001610011063017800140344436003220000217355018100110610425003554444360068900007121550180801116045283085894443600341000065046001605011059031181059244436007140598606452519050111490855410592382360071400006325550180501114885093105924223600714000076265251901011057455001059244436007140000632652519050110528938610592444360087800008847550180501107164782024454443600247000069394502201011071693051059219036006270000868265014010111568795810592444360089000008759475210801106409897105924443600832000083355002007011164623561059244436008900000872345022080110686541804715444360089000008301450220701106891806)
 (.leaf 4890444360062300007848625150801115315866032364443600832000005164502203011058700980042044436006270000055745022030110592743300420444360084500000543450220701105727161043974443600845000012293902503011058756930456444436008450000125339025030110583054504788444360084200001339450220301106080046051264443600845000012944302303011166975100512644436008450800143952519030110653945805126444360084500001339450220301116555004051264443600835000012454502203011165481940000045036000090000036745022070111663205600000444360000500000470450220701115715994000005313600000000002964502207011060442690000044436000060000085745022070110578359600000444360001400000901450220701116317085))
 (.node 1 (.leaf 444360000000000501450220701115173305003274443600026000005474502207011153510310124644436008700000399245022070111546751702360444360002600000367450220701106415780003734443600134000002444502207011066299250100344436008070000152445022070111545249302364444360063400003012475210701116234362000005573600807000041184502208011160399780000055736008070000538245022070110646333304317444360002600001572550181501106368965000004443600026000012905501815011063257920000044436006230000328350020080110603548300000626360061700003606600160801115119408002384443600026000022455501808011060203530000044436008350000237460016080111589597600000444360083500002694600160801106186712)
 (.leaf 444360063900002938575170901106746028013294443600643000007456251507011061281180368844436000240000062245022070111574397003392444360002400000639450221001106045394019074443600623000002323000015011133255680408044436006890000227460016100110607670810592437360068900005069550180801106198262105924443600714000075695251905011056917191059242236007140000650752519010110564990910592444360071403746615525190501104867215105924443600835000074335501805011168071370419644436008580000757050020050110738033910592444360084900008779550180501106941871048594443600790000088465751705011158758541059244436008850000771452519050111702972910592444360085800007461500200101115911512)))
 (.node 2 (.node 1 (.leaf 5125444360084600006999550180501116878046048894443600134078786915251905011157788280681344436007820000871757517050111658143110592444360087000008826575170801115140318105924443600871000089035002008011062111130471544436008700000867745022080110711658700000444360084400008601500200501106525687051264443600807000062584502201011060865430323644436008450000344245022030110613600505240444360084500001663450220301106224376046194443600845000012834502203011152271800681444436009770000178945022030110611896700000444360084500001651390250301114787442056984443600845000028053902503011163877130478844436008450000189239025030111628806900000444360084500001149450220301105975679)
 (.leaf 444360000800000229450220701106404718000004503600005000003364502207011068531890116544436000090000018145022070111658380400000444360000900000432450220701115303375000004443600017000003674502207011063682050000062636000190000085745022070111522206001713444360002600001603450220701106632790012694443600057000024964502207011153078890126944436003570000297745022070111649504400000557360080700006953450220701116276692000005643600450000066885002007011072744820504944436006890000883645022080111538003600420444360062700003017390250801107153769000004443600664000030283902508011073732320023844436003570000466060016080110690556100238444360084500007175330280801106374915))
 (.node 1 (.leaf 10592195360068900002947550180901106560713105921953600689000028565501807011073355270000044436006890000287655018090110738505200000444360079900002985600160901115325278000006263600024000006794502210011168800370382644436000240000064945022070111684090005058444360068900003376600161001106736142000004443600689036252115501808011163162390000044436006890000529155018080111638762103554444360068900005730550180801106533393063464443600689389865046001601011149935360425444436008450000788957517050111574377805125444360000300006167450220101106901900105924443600865000087385002008011064792681059244436008360000890452519080111548841710592444360062100008805625150801116701589)
 (.leaf 3083444360055800008785650140501106510901000004443600807000051784502201011068188910512644436003570000604145022050111617674105126444360000000006258450220501107054205032364443600845000037514502203011066369930524044436008450000408045022030111629871804619444360084500002991450220301106505817044304443600845000028273902503011163890540000044436008450000118045022030110627161202855444360000100000267450220701115876755026684443600003000002184502207011157802060070044436000000000040145022070111540829500700444360000500000558450220701116508722003724443600010000005014502207011155547960411744436008450000428345022070111530623002697444360003200002020450220701107222077)))))
 (.node 8 (.node 4 (.node 2 (.node 1 (.leaf 1167444360080700002081450221001115017150023644443600709000040394752107011171046970023844436000260000505155018070110798668003428444360002600001644550181501115971151000006263600835000038896001601011076479640000044436008350000369557517010111734368000762444360083500003586600160101107638873007624443600971000070183502708011077158180000045536011070000726539025080110750162000000574360084500005718330280701107357595000001473600845000056963302808011076736500000044936006890000293855018070110671695301404444360080300003083600160701116258377033924443600024000007134502210011076853820000062636000240000069945022100110760520303301444360002400000639450220701107819141)
 (.leaf 5346444360068900003018600161001106608670047714443600689000034385751707011067080531059242236008370000743847521050110781240110592384360085800007740500200501107502705105923463600858000075475002005011078251880619044436007930939880047521050111696896204859444360082503418678475210501117083577051254443600844075288155002005011078814200681444436000041889586445022050111750010305125444360088200008944450220701116511604105924443600825000088534502205011071340991059244436008450000861445022010111576311010592444360084205518677450220801115617953105924443600623000087905751708011072207470487644436008250000866145022050110716720803236444360077700005854450220501106304044))
 (.node 1 (.leaf 5240444360070400003968450220301106388885000004443600845000033244502203011068430360410344436008450000074145022030111624611100000444360043100001180450220301106618552032764443600000000015294502207011068264620005244436002830000057545022070111646521200000444360002200000857450220701107432180053664443600689000061624502207011153197010459644436008070000717445022070110789462900000564360010000007411525190701107967357000004443600026000051805501808011161403800000062636008350000383860016010110820743600762444360114100007337390250901107578010000004443600918000066846001601011162889451059219536005760000419757517090110816210604766444360068900002803550180901117062519)
 (.leaf 273444360064300000833700121001117173859048434443600689054634445751701011078177941059243736006890338550357517010111614557310592444360070913905987600160101108074904105924223600879000077155002005011082818811059238436009200120793157517050110813065610592444360085600008641500200501117433418068154443600858092886415002005011166018320512544436008280338752047521050110799630906814444360002230885724450220501108091262051254443600742000089135251905011073497801059244436008280000878145022050111679791410592444360062300008932625150801107599742014044443600793000087195501805011173728760000044436006210000893762515050110730629500000444360080300005306450220101108235154)))
 (.node 2 (.node 1 (.leaf 3236444360084500008238450220501116676050032864443600845000006444502203011163334200328644436008370000108445022030111547155604646444360083500000680450220301106892467011654443600134000017354502207011072957160327644436002830000295645022070110740856100483444360080700002342450220701115270220008524443600283000037244502207011071121310455144436007710000321747521100111653627705076444360002600007066550180701116220693105923943600423000027935751708011159797810000044436004230000408750020010111666127605126444360103300006684600160101108462380047664443600689000037565751709011081289080140444436006890000350355018070111612447910592313360068900002657550180701117289863)
 (.leaf 10444360068900000748575170701107868395042514443600024000007324502207011166937960000062636000240000072145022070110781210003845444360002400000645450220701108062611012904443600026000022375751710011161299610583044436006892864708257517010111666870510592437360070424345943550180501107495624105924443600832261263575501805011076840271059238436008281374799162515050110816809410592384360084503357910475210501108396056054024443600828000088534502205011088040171059216136008390000872647521050110830515106815444360083200008626475210501116423005068154443600819011988145251905011078491750512544436008280000865652519050110794961305125444360082803357174450220501107923272))
 (.node 1 (.leaf 5125444360082820536997450220501108744442068144443600000091757884502205011088016891059244436008440000883645022050110760933004210444360079300008968500200501117847501000004443600807000088014502201011161477490023844436000000000604145022050110780460700000444360000000006041450220501116180078000004443600807000057204502205011173308610312144436008070000666345022050111727153906362444360081900003578450220501116923545000005453600003000003674502207011076211620000054536001980000157645022030110800882603982444360027300002222450220301107323459000004443600845000007744502203011069882420464644436000020000035745022070110758636402757444360002500001720450220701107702203)
 (.leaf 4693444360098400003902525190701115803470049794443600933000047284502207011158475850503244436008070000768745022100111734277304958444360080700006884450220701108112781041734443600116000034125251910011158944701059239436006270000373060016080110829409100000447360011300002486550181001107894990051264443600844000070393102905011082620710140444436006890000651262515090111570822010592444360068900006229625150701108422367105923343600689000064305751709011167619011059219236006890000364955018070110831684803800444360002400000721450220701117522277000006263600024000007324502207011173685550000062636000240000170345022070110828997401060444360002600000415575170701108144318))))
 (.node 4 (.node 2 (.node 1 (.leaf 4864444360068900004687600160101115927838050044443600689000050695501801011164072801059222836007710729635852519010110788543306099444360082414886107575170101116062723088094443600828053589674502205011164919661059244436008280000762652519050110847477107462444360082800007767500200501108432869105921613600828106688164752105011079885370512544436000693570654245022050110849413610592408360000000006173450220501108169406051254443600846000089444502205011149963491059202936009800000895745022050110772124004641444360084800008967450220501107541863042364443600836000089164502205011173545310140444436009290000889945022050111744205204916444360079300008836450220501108201120)
 (.leaf 3554444360081900006689450220501108293713000004783600845000052894502205011159956220000053236000000000319145022080111547714200000545360000000000401450220701107750309000004443600431000019464502203011077445330469944436009360000395052519070110787157305180444360080700007814450220701108632645040094443600144000021585251910011161971570000044736006270000405750020010111744784302445444360085300007541430230101116575677007624443601141000074133902505011086448410355544436011410000733739025050111631170801404444360068900006570625150101117082192047664443600689000063976251509011176810120157644436006890000287655018090110847627100116444360114100001171450220701116970410))
 (.node 1 (.leaf 4097444360002400000944450220701116117252000006263600024000021804502207011081482890601344436000250000280652519070111511129801685444360002400001729450220701108106128085424443600828120979726251505011086147541059244436008282175762750020140110828661910592422360082808977767500200501108298314105921613600939000087264752105011180297940512544436008280117693945022050111597072310592408360025731336207450220501108538160105920293600870000089314502205011175968130423644436010350000888545022050111761000401404444360088500008836450220501108361343049164443600793000088854502205011178702160355444436008070000693745022050110840905505240444360000000006459450220501107804224)
 (.leaf 5240444360000000005543450220501108174793000004443600007000024224502205011161857060000044436000020000176745022070111699556203553444360000000001974450220301107925211035534443600007000022854502207011080871140464644436000000000047045022030111708766302757444360000300002274450220701116886138061194443600971000054635251907011079783440727544436008070000891645022100111651122900000565360070400005783600160101108133696000006263600567000040644752101011173365150244544436000690000375057517010111610011705126444360064300008766450220501108752047014044443601159000088284502205011175398520140444436010230000574567513010111754804210592313360068900004674550180701108428147)))
 (.node 2 (.node 1 (.leaf 626360063400002867450220701108397330037074443600024000005574502207011160510020524444436000260000431457517070111683507304517444360079901166918600160501116280563085134443600828000090177001205011169275370802944436008281322773460016050110896097910592422360082811897819525190501117692716105924223600828132276275002005011163985101059238436008280000757445022050111662953410592161360082800008951625150501115777219105921613600828032676265251905011081986050681544436008242667735452519050111695683810592444360076615796143450220501108640699032904443600807000088364502205011083870140423644436009160000871045022050111737894701404444360089100008836450220501108271779)
 (.leaf 4891444360089700008836450220501108170066049164443600793000087814502205011170505610000044436006340711861445022050111731487903554444360080700005890450220501108193129000004443600000000052264502205011163452200000044436000070000168145022080110819839000000444360000000002218450220701108289980046464443600001000005734502203011169025530464644436000000000155045022030110817685105654444360094900008492450220701108814835027344443600639000031324752101011157899520076244436006050000731047521010111739437800761444360068900008565450220101117523108044654443601029000085264102405011177355260455944436006890000503160016010111770695904766444360068900006570625150901115982951))
 (.node 1 (.leaf 10592334360068900006707600160901117567945002334443601141000029764502207011174961440464744436000240000168345022070111613630300000626360002400002739450220701117285443000005503600024000045654502207011082473350301444436000260000198257517070110883484406660444360084432666039575171201116256479062944443600689000061075751701011088898191059244436008280000752047521050110881318510592384360082800008885450220501108879141105921613600828131288524752114011164890281059216136008282430889162515050111712524410592161360080303237704650140501115988243051254443600828087569974502205011081696150512544436007713105723545022140111642527205125444360079907037116450220501109431500)
 (.leaf 10592444360080724876071450220501117675215032904443600890000088854502205011083146730140444436010280000894445022050110871129604994444360095200008818450220501117809349049944443600991087588534502205011165924490499444436010040000887245022050111630659703554444360079300006805450220501116123093068144443600000000063824502205011158735970000062636000000000457345022050110880013100000444360000000000267450220701116093113000006264840000000001814502207011158491630000044436000040000014045022070110827396800000444360000000000858450220701108122275000004443600000000004324502203011083440100464644436000000000173145022030111612832506156444360091500005635525190701116003203))))))
 (.node 16 (.node 8 (.node 4 (.node 2 (.node 1 (.leaf 8090444360076600007934450220701108810045000006263600257000021835751715011085266480000062636001440000508655018100111700667200000536360015700004379500200101108426412000004443600157000068405501801011081406420512644436006560000857345022050110876167303193444360110600008931450220501116271404014044443601159000088745751701011177676401059244436006890000651560016080111653137510592000360084900005032575170101108980693000006263600634000048854502207011086637450093744436011410000209445022070111560663000037444360114100001146450220701117285097000004443601104000011234302307011171653440000062436000240000409945022070110884066500000550360002500004931550180701108597238)
 (.leaf 4022444360002600002102575170701108964854088364443600803011489145002012011156263880715644436008240693665957517120111876138606311444360071400006058600160101108945552085544443600828031976584752105011181230110956844436008363643794765014050111591096408029444360086205117762600161401108949104105924443600828101575204752114011163176601059242236008280000791252519050111766454706516444360082800007417450220501108748209105921613600825000089697001214011175445041059216136008281428783465014050111662787510592161360079916617395500200501108159754051254443600006363554084502205011178849560991444436007992419844735027140110851124303290444360097103198529330281401108654733))
 (.node 1 (.leaf 10592444360094700008507330280801108268026068144443600803000088724502205011085118640619044436006690000880145022050110829223404924444360059211638462430230501117222436000006263600002000001574502207011157851750000054536000010000175745022070111740570000238444360000000002269450220701108702215000004443600010000005894502203011158916340000044436000000000040245022030110859215503605444360000000003421450220801115764861053834443600890000063644502207011165187510613044436008580000556750020070110851859003555444360098200008446450220701116021938060864443600026000062625501810011149357220418444436000260000207155018150111619209300000444360048600005112525190101108482196)
 (.leaf 536360005500004569500200101108488674031934443600973000088704752105011090495690425644436006890000504960016010111607751604256444360068900006571600160101116356911050404443600998000062434752108011090489610000044436009930000097135027070111673733006256444360002400004765450220701108766811000005503600026000050135751707011174093001059206036000240000608045022070110880106700420444360113500004973450220901116118681004204443601141000049504502209011161063830480244436000260000342557517070110858933006143444360083736267030430231001116149498063134443600719184563565751705011157807281059241236008280113776062515050111759410710592161360076608467225525190501108628603)))
 (.node 2 (.node 1 (.leaf 5125444360068600007057450221201115995309056974443600113203453384502205011090116911059244436008353660529629030140110860726910592467360090700008338290301401109196785089244443600949000086043502714011085758910601944436010260000880939025080111587609710592444360094800008695390251401117884911051254443600714203485114302305011084638090000062636000570000523045022080110894478500000626360000000002212450220701109055845002384443600014000001404502207011086517710000044436000000000036745022070110842798900000444360001000000790450220301117242606000004443600011000005584502207011163665360464644436000070000058945022030111601736303555444360003300001637450220701117478595)
 (.leaf 536360018300004155500200101108656208045594443601119000088014502201011162708980440844436006640000894757517050110865513704256444360068900004555600160801117178598000005143600634000050934502209011089834121059243636000260000530257517070110902271810592060360002600004908575170701108720760057604443600026000041495751707011087382370701944436008623765520837026100111629952707920444360084503137174450221201116407907101434443600698049690206251512011161213450898144436007994045896850020120111615372507375444360082406677685500201201116710304105924123600828099477606251505011088632741059244436008283095861445022050110949209410592161360090827028909600160501108900153))
 (.node 1 (.leaf 5125444360068600007057450221201108633240105924443600839192880452703114011087719941059200036008440313802527031140111622289110592000360083906678045270311401116190614103334443600828127483423102914011090838310023844436006690000664145022050110919410200420444360000000005757450220501115810409000006263600000000042544502205011093890000000062636000010000048045022030111607842700000569360016400001729450221001117125715000004443600000000009564502203011085490690541344436009300000588347521070110849457503555444360089100005117450220501109208616012204443600592000041555002001011173020800000053636006340000503945022010110936785900000536360051700005798575170101109418064)
 (.leaf 444360063400007561450220101118290703037264443600824000078412703112011089644740462644436006980000850139025050110856085805200444360111400008801450220101116207011042564443600984000060656501401011093511410000062636009670000651750020010111779751800000472360114100003774450220701116075249002914443601019000009593702607011158190020039444436008700000079227031100111465948010592444360018600006212575170701109059932105920603600026000045375751707011161601470000044436009520000675655018070111594639105775444360002600004094575170701108999412068954443600824065254115501810011161816720833744436008671718548841024100111640011009114444360084519957871450221001116633120))))
 (.node 4 (.node 2 (.node 1 (.leaf 10592292360083608307630450221201108913947105924123600828083076864752112011176118551059241236008280000765847521140110900044010592362360082804887297450221401118076475105924443600828328473584502205011175511031059216136008242360892167513050111742599310592161360079003098528450221201108679242056974443600157030966414502214011090464780569744436000602080642645022050110950136110592045360084540764921250321401108638639105920003600837030979582703114011094187561059200036008280488816929030140111629237610483444360083711258379310291401108980963091374443601028199586403702614011090495361059212736000000309434545022050111767249400000444360046700005162450220501117340276)
 (.leaf 444360040000004656450220501117637353002384443600014000049244502205011165242200055444436002570000032245022100110924649800238444360000100000345450220301108768411004884443600000000002964502203011089466240512544436000550000221845022030110856099600702444360000000000105450220701117167931056884443600978000056905002007011089013700592144436009500000738145022070111598334100000444360062100005088500200101108961557058914443600698000084083902505011165130260244544436006230000871045022140111737053704408444360063400008853450220501109412096042564443601048000062396751301011160627490293244436007660000547257517010110877226603607444360068600005495600160101109060280))
 (.node 1 (.leaf 472360087800005120450220801115956603007444443601141000028234502207011157464730559044436005580000599960016070110929373205109444360002000006332700120701118019068105922413600021000064267001207011177590691059244436006890000637757517070110941022706102444360002600004585575170701109411617078784443600824030654785501810011163492470825444436008584112732241024120111648614809819444360082825708872450221401108932028097194443600837159888724502212011176516010960444436008030822749545022140110925995710592444360082418958997700120501109486798105922063600799257085205251912011088471201059216136008452911861445022120111608829605125444360068915987057450221201117010374)
 (.leaf 10592000360084531228090290301401116413207099974443600704030682683102912111161091101034744436008190000812427031141110893491910592444360077108226724390251401109087584105922173600835360360562703114011088154581059244336006691598468337026120111610954010592444360000000002460450220501117398308002384443600000000051054502205111171043860023844436000000000298645022051111642110200000462360001900002728450220511109139317004884443600192000004024502203011085826010000044436000000000053445022030111565734705125444360110700001347450220301117803967051254443600000000017634502203011089584490136044436010470000376145022080111528856805602444360094500005585475210701109123762)))
 (.node 2 (.node 1 (.leaf 3555444360005700004334450220701109157776000004443600825000046085002001011176982530396944436006340000727045022010111765281804408444360070400009024500200501108836263048944443600689000074674102408011159366030000051436010100000555541024090111645948204138444360082800005049450220801109405664022764443601077000035344102407011157119480682844436006890000628357517070110970107910592241360017000006513650140701109321859000004443600689000062835751709011096918781059206036010600000497350020090111744022006985444360000500006057675130801109132128067054443600689000057635751707011165067430981944436006230642866841024140111597404910592292360081918818832525191201117726859)
 (.leaf 9604444360079914737709600160501109366599105920913600799368487104502212011173907521059216136007903086735845022120110892700110592161360083523256884450221201115830145056974443600027000045774502205011179526931059200036007930302468027031120110926096010147444360077100008288310291211109359160096224443600782010985343702612111089729370976344436007770000861337026121111602674710567444360083506428406310291211109223622101314443600782135983223102912111176445111013144436006642268802527031121110937349402445444360083904724250310291201109317529000005223600000000038274502205011094312690023844436000090000035745022030110868724300488444360000000000357450220301117215698))
 (.node 1 (.leaf 5125444360000000003710450220301115969529051254443601014000040804502207011172498390070244436003410000150245022030110901659006182444360095500006048500200701109362886077874443600984000088994502207011146339941059241536007990000493447521010110933470610592415360066400004904450220101109496048035554443600925010884884502205011101116990400344436006010000876345022140111756569610592444360081900007793500200101109554115046104443601121000050233502708011092981260461044436010800000536637026080110912832004138444360087000005071450220801109054429024454443600870000051204502208011091923951059244436011410000564445022070110935662302455444360114100004618450220701109287373)
 (.leaf 10592060360018300006215575170701116078112105924443600505000050885002008011092227870023844436006890000631357517090111732835206985444360004800005912675130801109208328068354443600689000075565751708011161039041034544436008703405901745022120111576993809451444360084540688968475211201109406047098274443600664046189675251912011090331230960444436008191769884952519120110975560510592362360079008037174450221401116016685105924443600782353488014502212011161206031059244436007792038859643023120111612326510592161360071408036813450221201108544822105924443600839063668844502212011090230920569744436000270803466245022050111686692610592000360070410868129290301201109001654)))))
 (.node 8 (.node 4 (.node 2 (.node 1 (.leaf 10283444360077102998268310291211115866768096224443600771218085163502712111159768160986244436008370803851635027121111597770609721444360077918648885450221211108984407000004443600000000044444502205011093501110000062636000070000123445022010110911880401667444360000400001230450220501109117572000004443600176000025614502205011178142300000056836000050000467645022051110914313903374444360000000000644450221001115927099035544443600001029903674502203111171797880512544436000000299392345022030110911144305125444360018300006200500200501109350841050374443601054000077004502208011157482600605344436009470000583550020070110939087906310444360017600003806450220701109050679)
 (.leaf 10592415360063400005377500200101109340521060724443600585000053215251901011097247840000057836003340000377252519010111757605800000476370025702956002525190101117814065051254443600782000088014502212011179036510512644436011590000585333028010110910349002981444360115900005376330280101110128135057814443601141000061625002007011096345510000044436000000000771870012070110970581700761444360062700007532600160901109764839000004443600689000061285751707011175948191059244436000250000636952519090110914689900238444360068900007773575170901116252284105923313600941063177145251910011097771201059228036007192364895652519120110970618010592133360080323648965575171201109915935))
 (.node 1 (.leaf 10592070360058516628866550181201117862443105922923600824093688325251912011094117031059229236008281329881845022120111782568909604444360079312178923625150501109389259096044443600779000089275501812011177536321059219836007793917892362515050111732087410592362360071921638488450221201116187010105920913600836209585734502212011177852681059244436008253583890960016120111619079610592206360074206318520525191401109060529105921613600828376783174502212011092347591059216736006693278455925032120111738611810592000360066901075135270311201108944570105920683600742121782203302812111160981121059244436008372425888447521121110937781307181444360046700006813450220501109716354)
 (.leaf 444360061323016426450220501116964659000004443600000000041094502205011174565250244544436006692364420935027050110968457300000522360006909363727430230501117872478000004443600000010732874502205011090398780355444436001340000391845022030111597784905087444360000009360322450220311108893639033434443600000010719404502203111090862180512544436010530000332645022050110911806002445444360115900005946450220901116008750024454443600000000025974502203011090006840285044436011350000729745022080110909628306112444360000600004917450220701116161555044594443600400000038535751701011095736330042044436006390000496252519010110981692901404444360095400007549475210101110238372)))
 (.node 2 (.node 1 (.leaf 5643444360074200008818450221201109568547056434443600828000087795501812011161314740489444436006860106861337026120110953571005126444360000000005954350270101109670273029814443601049000066524502201011099377690244544436008420000659052519080111015430404962444360114100006190500200701109549733000004733600000000078717001207011097845190076144436000140000774270012070111606557300238444360046700007636625150901109361435105922663601000000062165501801011096238460868644436000000000564870012010110921251909451444360071941708885450221201117602981105924443600953241390335251912011157448691059219636004672611899965014050110958718510592070360064314368895525191201116511193)
 (.leaf 10592374360079300008938600161201117657911105923473600790010689636251505011162313420960444436008251316880145022140110968310110592091360082433368851500201201109646759105920003600779192687104502212011160548941059220636008361436871045022120111580909210592161360071934708614450221201117269960105921613600771000070574502212011089027801059200036008190000541231029121111727929310592068360070424646225270311211109486968093924443600819000054123102910111175545000000052536000000000259845022050110946798700238444360000300001592450220501109935905035544443600060000024774102403111171354560512544436000270000342145022050111644582903096444360091900003653450220501109537058))
 (.node 1 (.leaf 5856444360084604454904450220801115738759043824443600170000017936001601011092958620023844436006640000556445022011111030683601404444360061700006861475210101109792903070204443600766000088014502212011098457240244544436008190000666055018010111760115304151444360114100007319450220701109624195000004443600819000061325251907011099786281059232736006890000603957517070111736114100420444360068900006313575170101117462766105923753600450000063376251501011099581420720044436003340000577067513010110970222908829444360085609217190475211001116315915093524443600858076976014752110011158305061001944436006054007894350020120111631355010592444360099435908864410241201115747058)
 (.leaf 10310444360046721358999650141401109888851105921963600704398988155002012011160555421059228036008581730887047521120110972071310592347360094006188913525191201109317055105920913600803390973584502212011095440981059200036007192500878145022120110995599710592161360074217308241450221201116004580105921613600771190986144502212011093596751059216136007791058843845022121111692013010592000360070919095155270311011109322545094274443600837000089897001210111163083770000045136000030000175845022010111584911300000451360000100001938450220501115777412000004443600003010519554502205011090389390000062636000010000177945022070110974702400000459360001300000218450221001115909265))))
 (.node 4 (.node 2 (.node 1 (.leaf 444360046702873196450220501117442086065994443600000000040224502210011091830350244544436008420000734645022140111607245501218444360000000002763500200301109621518030964443600576000023444752105011173539840000044436004500000746845022050110921722807318444360089000006426450221001115320432002384443600790000052764752101111179734910000051736006170000445952519010110969630605231444360060500008405450221401118026716070684443600835000088325251910111161484680723744436008360000859739025121111031152007743444360083200008957450221201116162035060234443600824000089674502212011159380210702944436007090000897645022120111029228205126444360063400007947450220501114993840)
 (.leaf 10592444360063900005596350270101110476709014044443600689000068027001201011098794540485144436011420000764350020070110996764510592327360068900007243625150101109031903014034443600689000068136001601011157912981059244436006890000573362515010111618552307365444360020700005953675130101109795438073084443600021000055707001201011157914510883844436008580000752047521100111673831108736444360083632077547500201001116724354105921513600828399486333902512011176026571059217336005764032900160016140110991621110592183360083515198944450221201109715506105920863600766162489755751712011158348621059208636006980000897265014120111622192010592136360066914108907625151201110286606))
 (.node 1 (.leaf 10592347360090714107817550181401109796428105921983600777325177915501812011178975221059219836007822769857345022120110918801810592091360074235228818450221201116096018105920003600704267884884502212011096203351059216136007710000869843023121110954650610592134360051700005986330281201109776588105921673600704010448082503210111093539461059200036008351894874843023101111594666410592626360079001048781450221011116039387105920003600742117768092903010111096232801059200036007990000617345022101110978943408798444360082500006173450221011109605547094694443600793000088374302310111161448940937444436008370000898970012101111577659600000444360002200001048450221001109393123)
 (.leaf 6599444360001301043462450221011115913436043974443600100091322894302308111091214840508744436003570000572845022051111716992205125444360000000004374450220511115536211051254443600144000020924502203011173932220512544436000270757195245022050111545165502445444360102800005103475210801109168054012184443600000000018415251905011093398100000044436009750000813245022050110974816506970444360080700008317450220501109683097041374443600247000018856001615011158498820000044436008390000341647521010110938571104121444360065600007852450220101110000578060374443600835000089574502212011180494180702944436008240436900045022120111025231807020444360030700009000450221201115193760)))
 (.node 2 (.node 1 (.leaf 5126444360115300005710350270501109938706049704443600170000057483502701011184336731059200036006890000670262515010111006522205000444360101600007947450220701115783363047974443600918000072953702607011098443241059244436006890000610160016010111023398300238444360068900005918600160101116281981014034443600689000058776251507011179379131059232736006890000573362515010111848679305922444360068900007127625150101116030207061584443600689000055776251501011103464360596844436006820000568265014010111591735210592173360082541886772500200501110878550105924413600853242476394752105011177002901059210536007663686843845022120111609422610592183360071926648726475211201117982004)
 (.leaf 10592136360050504368909600161201109644622096044443600777060564766001605011097982411059200036008073488843845022120111774861510592167360077702785554370261011109830677092714443600837000088364502210111096526030944044436007820000876345022101111611318408798444360084800005829430231011117379017091034443600832000090047001210111161827011059200036006892366885150020121111598444805696444360001710374080450220501116316222000005533600010000016814502210011091891010322244436000190605328745022101110964149200000444360035716063081430231011115797767000005813600183000005534102410111093180990000044436000041166023245022100111524778805087444360070900005218350271001117132759))
 (.node 1 (.leaf 6190444360002700005300450220501115860479051254443600958000080474502214011172033810000044436009500000666947521050110987451804782444360068900004984450220101116064194036354443600528000020585751705011157052080000044436008250000231850020010110980851200000444360068600003576525190101109542390060374443600837000088204302312011102939570439744436006430000696233028050111635722405125444360071900007993575170101110707257038284443601117000077744752108011095505871059243936006890000621162515080111044445107243444360014800006213675130101115944716102634443600777403888844752112011099956491059222036008422030728541024120111757434910592347360079319467572475211201117725533)
 (.leaf 10592347360077110247736575171201109814391105920913600714337083174502212011096825981059200036007422740881845022120111745263210592000360077907438614450221201109772702105921613600803169488184502212111173787271013544436007821155881845022101111594607810141444360077900008872450221011117908054092714443600837000062074502210111174704011059200036007900000617345022101111741155008289444360080701025864450221011117402509056114443600028000042574502205011104025560000055336000020000181845022100110946421005488444360000000002287450221001115921553050874443600004043220454502205011099491690512544436000691388387645022051111707376506190444360002216944290450220501117072710)))))))
 (.node 32 (.node 16 (.node 8 (.node 4 (.node 2 (.node 1 (.leaf 6190444360019805974485430230501117432503030964443600341000031055251905011174109050647244436000000000682255018050111572842404202444360046700002207575170101117215868000004443600639000044084502201011097542190000062636008780000361747521011111635875304583444360083500008763450221001118059476066644443600819000089135251910111103022770587244436008350268878047521121111613010706037444360084531188449310291201116258245105924463600719000088994502212011181724340512644436006230000600035027120111604030900000444360068900006159625150101110323104054104443600689000064156251508011177557340512544436007900000672560016010111031438000238444360068900005933625150101116097395)
 (.leaf 5883444360068900006159625150101116595506094134443600714114587804752112011157832241059216336008421581497043023120111100448910592163360071920878526410241201110249154105920983600669137688465751712011178850711059212236006212837839647521120111001329809604444360082825907656525191201117771438105920003600790331874174502212011179445091059200036008353724729745022120110992359510592000360069822178383450221201115470827105920913600704352382414502212011099402531013544436006690590883743023101111789707810592134360074204298678475211011109570631105921852310793277185264102410111173505741059216736007900000630052519101111588430510592000360077902687245390251011115984195))
 (.node 1 (.leaf 8837444360079000008818450221011110396563081554443600846000058644502210111161122220561144436001133118473743023120110987601100000590360000805901076450221011109884244041544443600000000034214502210111159480890553744436007090000859241024101110945447005537444360070900008474500201011110112864000005813600000000004364502210111158143250396344436000000000021845022101111591846605488444360000200001940450221001117316963105923293600000000002444502210011096477920244544436001700000124941024050111569622705087444360083728036260390251011109696086051254443600283185274123502710111094676990619044436000550000422445022050111747470401218444360025701013848500200501110201312)
 (.leaf 444360000000002165525190501115919245000004443600215000069965002005011097004610458344436008350000881845022120111094807707157444360070400008684430231211110242735080124443600793000088534502212011112935850000045636006890000662670012050110903102005125444360077900007677625150501116213903000005484671159000066125002001011174880590140344436006890000635162515080111017800510592444360068900006076625150501115799568105924443600689000061596251505011160455121059244436005170000603265014050111773167410592444360068900006448625150101117429957057644443600689000058636251501011161133031059214236006892484861445022120111755875410592267360083520748412500201201110261701)))
 (.node 2 (.node 1 (.leaf 10592163360084517536115410240501110390967105921633600842073250784502212011103331551059215636006860425775447521140111079885210592347360071932326143450221201115824122105920003600832373262344502212011100254331059200036007093726738543023120111016913710592000360077919988614450221201109830246101354443600844026285343702610111174984471013544436006820000861939025101111594507510247444360068601008728410241011116025785097344443600704000086193902510111161238220973444436007040000888152519101111776837509734444360074200008953600161011116271515094404443600558042563565751710111159828580944044436007900000877162515101111599237309440444360079300008877600161011117515815)
 (.leaf 10592000360083500006300525191011117531254104644443600819000060104502210111098239020745544436008280000593045022101111562326308216444360082500005185330281011116169511105920183600832000069113502710111101517800000059036000060000259245022100111594142100000590360001100000953450221001115721349056914443600627000048104502210111153266960553744436006560000445747521101111747259800000444360000000000609450220511117732167051254443600069192448114502214111172751160619044436000180000457045022050111785467900000444360002200006193500200501115736096000004443600862000088994502214011102689081059244436009520000315450020011111728398100000444360090804222958475210111115913476))
 (.node 1 (.leaf 2445444360079300003316475210101109989832105924453600836000086654502210011104276621059244536008360000861445022101111753055308012444360083500008931450221211110524836105924463600771000089955501812011108638510681444436007710000885345022120111812016406814444360091800008993450221401110654241035544443600689000065006251505011093963851059244436007420000791057517050111612931710592444360068900006528625150501117897852067944443600689000068134502205011103453701059214236005761124817445022120111012268510592254360077105748123410241201117980676096044443600431242878854102412011106168441059244436007192564838345022120111634670810592293360062122576984475210501109947747)
 (.leaf 10592182360082800008614450221401110177140105920003600714365359304502212011177829841059200036006983420752345022120111046380110063444360063900008697410241011110129887101704443600742000088994502210111160303920915444436008030000871362515101111005559809440444360062700006231500201011110108269088374443600719042255963502710111159415530883744436008190000564845022101111017029410592018360080307256852350271011117588396000006053600004042228984502210011104093340000054036000150000391045022101111751779405691444360077900008337450221011109712091055374443600006000044914502210111174850270548844436000280000468245022051111747230605087444360000100004207450221001110189099))))
 (.node 4 (.node 2 (.node 1 (.leaf 6667444360060102556382450221011109802699066674443600837000050644502210111162336100791044436008370000839545022101110998960906190444360084900007999410241201109930781051254443601007135261734502214011106979120512544436003340725365547521050111754828700000444360000000004181500200501110068905064724443600000000046814752105011105758820762144436007710422895745022100111589362910592444360083500008710450221211116156818038054443600689000062576251505011108101830398144436006640000538143023050111539175800000444360068900006159625150501116321060000004443600742000061075751705011167346970000044436008370000607543023050111594252501035444360063400006394525190501110198187)
 (.leaf 3828444360063407206301500200501116847492051254443600689000065286251505011183648570634744436008250000726443023050111575137806920444360068900006326525190501110201405077094443600689000063275002005011158750950806644436006890000658345022010111568855610592077360014415478458390251201110456629105924333600803292978093702612011162196321059244436006821647857345022120111028098110592444360077111128488450221201110660387105920693600639056271685002005011158285361059200036007663751586445022120111610475310592000360074202458476525191201116049175105920003600779292986654502212011100751930944044436008420000878145022101111009055609440444360058500008833500201011110736881))
 (.node 1 (.leaf 9362444360080700008815500201011117492808091484443600832000072524752110111159298831059201836007770000549635027101111568817005611444360059205627010475211011117639298056114443600682000088335002010111102283520561144436006010000473545022101111033312805691444360077900005041450221011110314522046234443600148000039184502210111099096620462344436000000000590945022101111016973207084444360000011125810450221011117522152050874443600000000047584502210111100448020779444436005920000547145022101111033121906190444360084605628174390251201110327428051254443600819000078984502205011159877880597544436000000000442147521050111038728302100444360094213288370525190501116064334)
 (.leaf 530360066909866838525190101116108072105924443600835000086144502210111106813060858844436007710000896745022120111645528008439444360114100008110650140501110438190038054443600901000063634752105011108134860416144436006890000586362515050111110556003981444360070400005429475210501110471565105924443600689000065006251505011105765571059207736002730097816239025120111021017110592407360068919598626475211201115921512105924073600682341686654502212011159894991059232836006432674775339025120111816976110592328360079320395131370261201116485970041764443600623000059655751714011106570170000044436007793051824145022120111012770308973444360070433535864450221201115966544)))
 (.node 2 (.node 1 (.leaf 10550444360062300008748430231011116258023099074443600907000087985751710111106569080990744436006640000885150020101111031152309440444360044200008748430231011110600820091484443600807000069923302810111175800590914844436008460550543835027101111574954708059444360079900005930450221011117392635000005803600060023380204502210111164157770000058036000180000446145022101111809576505691444360081900006692550181011109903633046234443600431000004324502210111103517190508744436000000000625645022101111734341507910444360083200008868525191011116167830051254443600835000087205002010111178095150512544436003490000463443023121111027003406190444360058514375145430231201117597402)
 (.leaf 5125444360019813284713430230501117643558051254443601000000059304502214011177097710512544436000040000544045022050111577924302430444360093442028611525190501115321489105924443600835000088014502210111104321421059262636007710096895750020120111077495703981444360068900006764625150501114669422051254443600686000070976001605011180620930574444436007900000623641024050111787403405995444360068600006029475210501115743432071064443600689000054084502207011154524990862544436008440000714743023120111083183610592389360083616218635430231401110692952087564443600714187669394502212111158716951059200036007043701614345022120111735677108409444360082836146997450221201115894772))
 (.node 1 (.leaf 10592000360071916218698430231001110180465101124443600627000089435002010111178576551011244436007040000898462515101111606484310112444360076600009004700121011115739830101994443600766000090237001210111159524840990744436006050000887047521101111107171310106444360046709788870475211011117945210095584443600540000088014502210111160080640944044436006820000894350020101111782958309840444360047700008803430231011111085420080594443600689070759634102410111158047700805944436007140000588039025101111589644208059444360079312195724450221011110058485056114443600623023287634502210111157163280000058036003570000535647521101111051168405691444360001100000345450221011117392368)
 (.leaf 5691444360062100008643475211611115682591056914443600664000046885002010111176002750580044436000000000502145022101111032611505488444360000012195854450221011109930857053234443600283000055064502210111158580400619044436006431219520141024121111752117306190444360084900008458390251201110294495000004443600793083662074502210111179626830492644436009820000430750020010111057956210592320360079900008438450221011110476629105923203600824000087104502210111156013951059217236008350231866545022100111056619210592000360077100008957500201201116193580049754443600709000065635251905011104954120398144436006890000650062515050111018790205125444360068900006143700120501111067698)))))
 (.node 8 (.node 4 (.node 2 (.node 1 (.leaf 5697444360068900006213675130501116174693009414443600771000054666251505011107946640471644436007660000625452519050111058905610592444360082420788748430231201116019610105924443600613130873253702614011112019201059223636004671082696641024050111166570805125444360038427335198475210501116380838105924443600528186034805251910011103528351059241936006050095210152519050111596080510592367360085304062858500200501110562220105920693600698214083413302812011111206971059218036008323221872539025120111776214210592444360069812077299430231401110552300105924443600682054376394752112011177673130872544436007421938838345022121111705226509729444360064310828597390251011110637825)
 (.leaf 10592444360062700008962430231011117718454101124443600766000090177001210111177869031003344436008070000900567513101111589684110592444360066400008742390251011115839094098404443600634000072653902510111104697300914844436007790000618043023101111135539408059444360042300007385430231011117438083000005803600033000042074502210111105187450569144436002470000367845022101111555461105691444360046700004234450221011117344826079934443600623000085304502216111159982120569144436000000000411945022101111739821805488444360034900006041450221011110354030053234443600825000069094502210111156262930791044436008320000578845022101111045008007910444360080300005393525191011117852792))
 (.node 1 (.leaf 6190444360001400004179450220511110500510061904443600771054384773502712111109933870512544436008560000850139025120111588970005458444360000000004676450220501115800666058744443600934212781744502205011163832701059244436007901403482745022101111576525602073444360094800005473500200101116132151016914443600714009444425002010111105609081059200036008350094871045022100111098103710592000360083500008836450221001110794066039814443600807000076604502205011121521130579744436007040000538962515050111653183110592444360068900004952625150501111411887064504443600639000072974502205011178699291059200036008280832881550020120111070299610592444360082405398548430231201110993825)
 (.leaf 10592444360080711952746525190501110976432105920003600686040383574302312011104060051059218036008192679879941024120111083784106174444360077700007613450221201117585656105924443600627192759445501805011108232910962744436007793957889945022121111558562909729444360084826408801450221201117607948105924443600664000089624302310111181160271029744436006390000900850020101111790356208942444360068900008986575171011117910087099074443600467000088984752110111117316941045544436006690000790325032101111116942309846444360054900008923625151011115403621098464443600592000089846251510111110517621040644436006430000855937026101111603689809148444360044200007550450221011110972966)))
 (.node 2 (.node 1 (.leaf 9148444360047700006143450221011110373853080594443600592000060154102410111158028970448944436007090000405145022101111545505507207444360083500004408450221011115802757058004443600005000038514502210111104772710711544436008350000543745022101111582597707815444360082400005788450221011115201539061904443600028000045774502210011176087820619044436007790403864639025100111120609605125444360054902298635430231201110847481051254443600877000088464102412011109073440512544436000000000583750020050111035324402073444360098200002533500200101110887291105920003600825000086144502210111108250681059200036008280000876345022100111164443610592000360083200008781450221001111163564)
 (.leaf 10592262360083212916484450221201111570341053134443600704000064506001605011183473810424244436004770000639550020050111093317810047444360084921788625370261201115332924105924443600247068755854752105011107576951059228236007662060437855018050111577675410592248360068613955636525190501111278587061744443600704217874804302312011106833361059244436007991291773145022120111784976709908444360084828508885450221201110847102098814443600848343088364502212011175875360972944436007422905878145022120111098017109729444360079315868899450221211117602490105924443600601053789394302310111115021140914844436003070000755045022101111115225308059444360089800006654475211011110211969))
 (.node 1 (.leaf 8165444360065611838801450221011110797478082504443600273000084384502210111104750120887744436001570000711645022161111083357908877444360023200008665450221611115804689088774443600540000088465751710111180775380722444436001980000451645022101111048895407138444360033400008174450221611110034077094624443600072000070094502210111157918560781144436008320000848845022101111088146807910444360083500005930450221011115763363061904443600019000046624502210011105541860619044436008250000891547521101111152397905125444360074200008607410241201110702569035544443600825039441094502201011106681740472244436007660937395450020100111074527110592000360082800008710450221001115897635)
 (.leaf 10592000360081905338763450221001110876523061904443600689148161596251505011119878561059244436004130000644665014050111123885504965444360068900005466625150501111801288051254443600689039470976001605011157629791001244436006430394840839025120111101140910592000360083703945319430231401116049711105924443600846106181375002012011161417271059244436008530818521450020120111593750408362444360082409379000450221201115964865068564443600824000089955002012011152205811059211536008323291887143023120111817753810592444360062327377805525191201110969244085334443600803284088704752112111150034981049944436007991385896745022120111146026809773444360060100008993450221011118264145))))
 (.node 4 (.node 2 (.node 1 (.leaf 10592444360068200008613370261011116324698098464443600540000066575002016111173699640984644436004420000665245022161111719676204239444360025700008504350271011111291346091484443600505000086834102410111110754100805944436008280000899262515101111816376808059444360089802268883430231011118095740080594443600704022687935002010111158088690887744436002320000878145022161111176525407207444360044200005569550181611110398322067024443600477000053004502210111158079480815844436007790000833745022101111134762207637444360077900008272450221011115622543083124443600558000070534502210111159952380780544436006230000705745022101111589067808813444360082400008853450221011117810455)
 (.leaf 7840444360063900005573410241011110868119061904443600192000047444502210111175305340512544436000000000544045022050111097267604722444360080700916078475211011117724601087924443600719000029025002010011174310730879244436007900000795347521100111585518510592000360079900007838450221001117626574105920003600832000087104502210011115717431059228936007710225891645022120111614892308170444360066400007570500201401116203529096044443600682022561135002014011160440241059244436006890000601362515050111160826904965444360068900005466625150501111127341105922753600689238667374502214011180526140284044436006890000668760016050111599470106547444360068600007028500200501115806171))
 (.node 1 (.leaf 3554444360083213774944500201401117958874105922383600656156248164302305011110638650000044436007773745769739025120111110626209604444360064300008062500201401111917882000004443600819137788994502212011116863670977344436007932884848845022121111542939010592444360077900008338290301611116584977098464443600232000086133702610111107437050805944436006340000902565014101111174528210592264303083521566997450221011110926551064554443600100000026224502210011172672890645544436002320091848845022101111565354008877444360077100008948700121611112048381084284443600207000068844502216111174435450757944436002470000462845022161111575511007861444360047700008573450221611115688627)
 (.leaf 9003444360044200007174450221011115848306091984443600450000086654502210111163515710881344436005670000861445022101111088513808991444360052800008614450221011115759154080184443600835000056484502210111111252020784044436008030000856841024101111108589605125444360070900005357410241201117756082055254443600832000039524502210111107428030000044436005760000388647521101111572680510592444360071400004442500201001115891806105923003600799038683174502210111111335531059244436006890000742462515050111808481410592444360066411607404600161401111406587049054443600689009059886001605011160104900606744436006890386614345022050111614841810592341360085303864862500201401111432537)))
 (.node 2 (.node 1 (.leaf 444360084808068020450221201118038644096044443600486000072104302304011119940630960444436006130000778150020140111645261010592000360080723178801450221201111106079105920633600771386287634502212011108718601059244436007140000865337026101111789859109846444360023200006697450221611109918320098464443600944000084493102910111109737170805944436003490386623247521101111617335606455444360019800008899450221011110848254095874443600232000069974502216111160082640808744436001830000547745022161111082095309058444360002800004879450221611117537436104904443600273000086144502216111159982920920144436004420000871045022101111136041108018444360083500008665450221011111230448)
 (.leaf 8018444360083600008614450221011115706015061904443600862065685533902512011177393860512544436000140000457745022050111109124205125444360000300004744450220501116017535051254443600918126689934502212011149419160681744436002210000466245022050111130035305125444360061327456509450220101111466559061904443600835038047444502210111114582371059244436008250000425745022100111120213510592000360045000008781450221001117707012105920003600837000078263102910011111683491059200015208280380885345022120111603721207104444360068223046992330281401111287889105924443600689008978396001614011108921351059244436007190223524125032120111089188910592444360063922567281600161401111642607))
 (.node 1 (.leaf 4148444360068212597151500201401116429816096044443600689115055636001605011110360211059234136005050089775339025140111175182210592444360078231668528450221201116231798105924443600719065187104502212011118156381059206336005853166793445022120111568467509773444360081937948241450221201111558622104044443600779038090095251910111120999851059244436007660000843735027101111585227110592444360071400008640370261011116207335098464443600605000090025751707111182269280914844436006210000893145022101111750791008877444360002816388573450221011117497206088774443600157052187814502210111155390450887744436001760521888545022101111756330708877444360005703808853450221011115412467)
 (.leaf 8877444360035700008493525191011110765115094084443600198000084384502216111157221890884844436000180000547745022161111552506110074444360058500008584550181611115874678101864443600423000084884502216111110581480825944436006340000578845022101111572313008018444360083700007057450221011115900135105922713600613000055644502210111112235520619044436008560521861939025120111800859306190444360085305218553390251201115957393067544443600072241548274502205011184176380439744436001001940616745022050111766894410592444360082500004744450221011117874091105923383600689000062344502210111117377901059200036005490000654245022101111148070410592000360044200008665450221001117860295))))))
 (.node 16 (.node 8 (.node 4 (.node 2 (.node 1 (.leaf 10592000360082400008650410241001110954925105924063600777051868134502214011118097781059244436007711858730755018040111130041905692444360068900007715500200501116476479082484443600790008886264752114011114141171059234136008480000547350020140111216529010592238360047700007369410240801111247572069104443600793125282414502212011119020070960444436006980088588447521140111149730209914444360062300007397575171401111592453069394443600803385287664502212011115300421059244436005760000861445022101111836040110592444360071900008584350271611118047404098464443600870000059543502710111176876800984644436008700000597535027101111573644909846444360077100006824700121611115799740)
 (.leaf 9846444360077100009033700120711117790480098464443600689000090136501407111182184110984644436007710000896970012101111780727408059444360030702228665450221011118125685080594443600010022242574502210111110327920742644436000110000649545022161111598075009256444360023200005564450221611111651048094164443600232000056484502216111153368680960244436000570000793445022161111051732109121444360001700004904450221611115185560095524443600585000086225501810111159297860941244436004420000607145022101111637119509179444360052800008698430231011116174411105922713600221022265424502210111109694171059227136007790000564845022101111136774410592520360083500009000625151011112266480))
 (.node 1 (.leaf 10592271360083716258553390251201111264768051254443600226000049704302312011115865160000048936002471346783845022050111619119710592444360068216964109450220101119091604066534443600793000061734502210111159906621059212336005400782556445022101111601649310592338360074200873567500201001111243425064574443600803000083174502210111113375981059219336008371133888545022120111832645910592444360068621187623550181401111930192105924443600891252579325251912011120203261059244436008191133768745022140111568511410592444360080739627601475211401118072412105923413600824022182414502212011158462680791244436005281133856841024120111573949707330444360045005146885390251401111576973)
 (.leaf 9914444360069815267613450221201115961927105924443600689260177314502212011117443090821144436007142170817445022121111570381906939444360068239217956430231201110909979069394443600689399583174502212111112606021058844436004130370871141024071111659317109846444360045000008872450220711116012920098464443600400000083793102916111157816220984644436007710000896970012101111817864409846444360077100008934700121011115811795086204443600634051486333902510111157197500914844436007790087850139025101111557730608059444360000705142783450221011111031886092564443600232000083174502216111180532060954944436004420000876345022101111601180908364444360077700005962430231011116405338)))
 (.node 2 (.node 1 (.leaf 8220444360083500006113500201011116446689082824443600835000089076251510111160090661059227136000050000696645022101111104763306713444360014800004109450220401116255868105924183600627000027214502201011117455741059220536008370510886367513120111569994110592219360083709027550450221201118044005105922193600714281275744502214011120684271059230136006822278757247521140111165545010592444360066406417547410241201117980489105924443600819132569974502214011117140600960444436007663939713447521140111673627605126444360068932736942650140501112077109105924443600828051074964502212011180924060728444436007140000883645022081111545839104263444360083505107613450221201118230102)
 (.leaf 6939444360006000004257450221011115944964105924443600714000085913702607111121507931059200036007420000901770012101111603661404840444360068203648872450221011118205428105920003600777222486654502210111158819070862044436000272869527145022101111582446708059444360028300003985350271211110905080080594443600019000015874302310011152215120806444436000000000284645022101111144849808302444360001800007731450221611111384965083024443600357000084384502216111112017250977944436006560000556445022161111589294109524444360065603648635430231611111931446096524443600232000071164502216111112830960949544436002320000564845022161111559923409620444360023200005724450221611111043384))
 (.node 1 (.leaf 8635444360083507748781450221011116231902078014443600835000088766251510111161029020932744436008360000889455018101111611830110592520360083600008913525191011118256339089964443600771000089376251510111178749590494544436004001426553043023140111157019804945444360019200864490430230501111920520056724443600978051082624102414011116021301059214320408622580535647521101111193233210592338360076600005477450221011115996776000004804370664000080404752110111178433721059200036005760000824145022100111802623710592000360083600858818450221001111903667105920003600617000089487001210011185926021059244436008190218895970012120111199183510592219360083503577574450221201112002189)
 (.leaf 10592219360079017527358450221201118193259105924443600682373176864752114011182439861059244436008463396616745022140111814364910592444360085830656298450221401111503887105923793600048000036564502208011123307650960444436008440000876345022121111579955806573444360079900008174450221201115578127071584443600170100847665251912011114140560817044436007043440850139025121111149642508267444360071411177661350271211115736602105924443600134246174964502214011117372361059244436006170000847735027161111214340110592444360066900008218270311611111719615105920003600366000085463702607111167217921059243536000090000255145022100111551214409148444360002510083929450221011115451353))))
 (.node 4 (.node 2 (.node 1 (.leaf 9148444360001412324772450221011111254818093444443600033000051734502216111159355410990244436006130000711645022161111159310310327444360045000006020550181611111405409102154443600232000060104502216111159484501027244436003490000876345022161111151130410443444360036600008710450221611115918891088814443600442000087104502210111159464671059224436008320506556445022101111154055210592271360059210084904450221011111437850067134443600000000033044502205011183806261059205436008350000617345022101111590682606708444360083502177934450221001115758788105920723600442158483174502210111178780091059202324705670217844847521100111591208910592000360057600008781450221001112248115)
 (.leaf 10592000360061700008709700121001112724403105920003600719000087985751710011119954501059221936008031223735845022120111803753210592444360082429367718450221201116243235105924443600709389277665251914011164081051059244436008582357629845022040111821161110592360360082400008020450221201111638442026264443600819000081234102412111160669180681444436008190501808043023121111829813106764444360069811034490430231211118216808056974443600704000032284302305011157890311059235236002263363710439025120111776187306617444360048602177325370261211111563557105924443600714000059963702616111180968271059200036007790342900470012071111193399910238444360074200008989700120711112124381))
 (.node 1 (.leaf 444360057603422870390251001111383346080644443600009000024804502216011115081680806444436000200342802045022161111156326208064444360023200008818450221611111344940099024443600540000056484502216111116096570965244436000020000572445022161111775880608749444360083600005648450221011117826864083734443600623241155644502212011124001680520544436005400000457745022010111659627310592170360068600005724450221001112300786083904443600639000085284502210111154949041059200036003660000843845022101111565817506708444360068600007018350271611111804140105920883600835075088364502210011119556981059244436007191660793157517120111218724810592277360079318867889450221201111693845)
 (.leaf 10592444360080730117820450221201118101443049694443600856000056624502204011119887551059244436008582189654245022040111844850004580444360068940535659650140401115707368105923813600842000054984752112111117873990730644436008460340781643023120111593858908637444360076606298295390251211116157211076044443600709130473694102412011123687670601444436006130340389443023051111573480008267444360068904988016390251201117941323061274443600192000055654502205011159394480991444436006270000381145022011111150519810592352360010410974408450221201115735954105923523600170271839664102412011117346631059235236005851573791443023101111798780508677444360063403406659525191211116482689)))
 (.node 2 (.node 1 (.leaf 10592444360068900008567390251611116030452105924443600232000088184502216111137657590000062636000190000183745022101111165097108064444360000200003567450221611111398569080644443600567000086204102416111123063700997544436006560000586445022161111181957310058444360052800008438450221611112031841100224443600771000085376501416111165279700984144436002150000862255018161111578715910285444360019800005794550181611115815905073484443600836000055304302310111157985440817144436004770000473743023121111800465408373444360013620185440450220501112240623068444443600010000039524502205011123884191059244436000000750348945022050111223788305761444360054026378317450220101115815740)
 (.leaf 8793444360068200004109450220101118283375105920001420431008264264502210111121952700670844436008254125544045022100111830339710592000360083200008800475211001117850512105920753600824340374954502212011157876861059240436008370746857345022120111552343910592258360068223327769450221201112313952081174443600704049377864102412011119883820553844436004420000283545022050111572363010592386360019800002307450221001111498809105924443600742000086364102416111158800651059244436000060000000000003161111573003310535444360034100008833500200711112105741101604443600617000085555002007111120203381016044436007142867895745022121111239443004840444360063925528710450221211112083520))
 (.node 1 (.leaf 10592000360036627487013430231001111539142080644443600020000027154502210111117719650806444436007820000903467513161111298728508064444360086200006977430231611112211892080644443600232000085114302316111176897520984144436007710000606770012161111205464310010444360034900008438450221611115837772068144443600400247385484302310111115901321059237236006391939614243023101111169271200000444360042300006144450221001112822444078104443600221000067374502210111157633400782644436004310000752345022161111597309210592019360083503378174450221011111820710078964443600824000073924502210111180159311059207236007990000740847521100111822242310592000360068902138923625151001112855285)
 (.leaf 10592075360083507407550450221201117993364105924043600828074073584502212011157499721059225736007191290735845022140111571788810592390360085824276884450221401112503872105924443600824186368844502214011126997180782444436006824199608947521140111597345607137444360068202138713625150801115351634105923853610799398482924302307111157142331059218836008280000745441024121111175517107101444360082800008020450220811116557191058714443600946000051734502208111168539760809244436007820000851143023121111578507608285444360041300005241390251201111734078072884443600698098377864102412011156858250923544436003840000389443023101111790096709235444360068900813304450221001111877659)))))
 (.node 8 (.node 4 (.node 2 (.node 1 (.leaf 10592352360038400004257450221001111988793105923523600656108585463702612111125377070930844436006433973636445022071111546587810592444360077900008282330281611111969326105924443600232033789435002016111162793811059200036007902583755743023101111135062308064444360042300008447350271611112652488080644443600771000090417001216111121674740972244436003570000859643023161111188033309753444360077100008204700121611116220999088284443600771000080507001216111121277370817844436005170337603643023121111601504607911444360015700008241450220501115758648105921703600682000033044502201011183519950756644436005400000490445022101111228053810592000360023200006542450221011115654290)
 (.leaf 8044444360022600006884450221011115542723105921783600634000041065002010011116782681059200036006864141478050020100111215181110592000360079000008866550181001112032360105920003600835008087634502210011121782851059200036008350484871045022120111196728710592177360082419837417450221401111992266105920003600714061675234502214011126598411059234836007823508776945022120111606350710592444360068235607820450221201118221465051254443600819289962984502214011165146450879244436008580000629845022040111879728710592157360048600006058450220801115819103084664443600828000076134502207111124026590824344436003410000437137026121111519283910592316360054000004257450221211116042259))
 (.node 1 (.leaf 10592316360068200004109450221001111873982068134443600664118481524302310111119099670991444436003220000482745022100111177857609914444360060513784559410241011111784662032854443600664000056534102410011117795881037744436007710000904970012161111390937610592444360061700008951625151611111644573000005753600020073826484502210111178365150806444436000110000171345022161111188433208064444360016402127853390251611112661149080644443600002000047394502216111150963711023344436005170000875760016161111587826310491444360061702128853450221611116124989105923723600022033665424502210111120012770000044436008650000868341024120111629136308217444360089006166074410241201115700065)
 (.leaf 6862444360061309795078450221201113304304072214443600592000082414502205011145017101059234036006891979705745022140111851161610592000021087216268711410241211112212111105923243600835000085964302312111124925240712844436003491072517345022081111625943010592387360077100005173450221001112516730105923523600226000041914302310011121789251059200036003221072888447521071111284111410592000360071417028614450220711116017646000005443600022000024224502210011117340850806444436007770000869843023161111589584408064444360000300005007450221611111577417084554443600021000030274502210111177717370891144436007990000887760016101111627167205126444360077135525477450221201116107000)))
 (.node 2 (.node 1 (.leaf 10592170360065641848781450221201112765209075664443600226047448274502210111158361070816044436002210000605845022071111571332310592006360082415314109450221011111893104105922633600782007872884752110111120297911059262636006430000893860016101111810693410592000360079900008781450221011112667565105921383600807190577184502212011183125491059224936006821905717445022140111293119708735444360080706098846575171211112131160065694443600207020967773702608011165161371059208936003570000474445022071111207107407807444360051700004970430231011115670161068134443600273000051454302310111158403980642244436002210000617345022100111591326610592352360028300007201410241011112164929)
 (.leaf 10592352360022100004257410241011115246108105924443600704000089135251916111161603731059244436007090000901267513161111840056808064444360000000001592450221611118054120074334443600000000044424502216111156211821044544436001980000843845022161111600946606915444360010400003861450221611111853273084554443600226000081384502210111176364530961644436002470000881452519161111569371410107444360070400008931450221611116120147101074443600634000084384502216111181542600000044436008031270778641024121111192876900000444360006004746997450221201113088817077754443600116073051734502205011156975780633444436006011270667541024050111590261405487444360083700004323430230101116914554))
 (.node 1 (.leaf 7898444360022100006813450221011115523742105920001490558000077314502207111121669491059217836007930208732047521101111583923410592626360059200006841525191001112155424105920003600835046889444502210111126929891059222936008361688752345022100111209409110592231360081911657417450221401112394788105923193600682033170574502214011166187761059244436006820726711645022140111423820010592444360068230437495450221401116805153089084443600669144188364502205011162519470890944436005920000851560016081111578603510592000065082504687386430230711112529606105920173600567000074964502207111179880490842444436006640000865041024071111573296807395444360025700004257450221011115877241)
 (.leaf 420444360006000003876450221001116021027071214443600207020841914302310111121335490904844436000000468739245022071111213968510377444360064300009015600161611118557249105920003600283318879144302312111161039730000062636000000000327545022161111185529908064444360077100009023700121611119591433080644443600771000089487001216111185150290806444436007710000901770012161111867006908064444360070900009023700121611118916800080644443600771000089207001216111181186290806444436007930000895162515161111870547905521444360000000003668450221611112057417085844443600055000047074502216111121490650845544436000040077294345022101111560910710107444360045000008818450221611118286291))))
 (.node 4 (.node 2 (.node 1 (.leaf 10244444360062300008913525191011116098356068144443600782000088906501410111119616200681444436007930000479537026100111577719900000444360096300008831410241211115504500061454443600064361150544302305011157972821059227336006432893885345022121111310879608944444360022100005251450220711115687385081964443600221000064264502210111153200071059262036006010330846350020101111839048910592000360058500008832525191011115912484105920003600835007677954502212011182403101059244436007041748693945022140111431657609604444360068614334662450220401113098328105921193600828000056534102412111181321720867444436008031057736941024071111830577007268444360066904628152430231211116199012)
 (.leaf 7921444360066428718697410241211112908480084894443600766095282624102407111162033260439744436001920952404243023100111593300000420444360066410574505350271211112795607004204443600116000038944302310011126181481059222136000570000230745022100111568596310592444360054000009008600160711118770909000005034340116020770504302307111160899760000062636000030000175045022161111208486008064444360000000761608450221611112146867080644443600221046281234102416111182462280806444436005760076895360016161111904348308064444360077100008356700121611116119045080644443600283000084884502216111158617440716144436000690000404545022161111251324405734444360022100004467430231001115479229))
 (.node 1 (.leaf 6611444360000300004432450221001111972658099424443600793000088975002010111160589670803444436008420207560639025120111534937910592444360002806003952450220501112956578064544443600104000038114502205011126871341059206636002210000442147521071111574257410592066360071408344421475210711117878620105920003600793000082414502210111178234991059244436006860449711645022140111360331010592315360068231167057450221401118938659090544443600634249577424502205011128927341059211936007140718738643023121111836356406983444360048600005701370261011112439203090484443600517071873773502712111127263130904844436000160206556545022071111835640710377444360084500008916450220711118425257)
 (.leaf 10377444360006900008893575170711113209109105924443600060000088935751707111159068260000049936000000000143845022161111785647108064444360061700008976550181611115914963080644443600558000089444752116111123733620806444436006890000898267513161111586083408064444360054000008831550181611115730094040074443600000000038114502216111158528710500844436000000000820745022161111240412306391444360000300008272450221611112706350071754443600055000048274502210111123839820000044436008580941888343023121111841763400000444360088200008668410241211112527327000004443600937000088314102412111155029541059244436004670595473743023050111846015400000535439060515104904450220501115860238)))
 (.node 2 (.node 1 (.leaf 10592273360068937718931450221211112965037067914443600477000036064502207111182657531059206636008250000688445022101111576177410592279360029300008383450220711115856987105920042680656007478384502210111122704221059262636007770205871045022101111887355710592288360082503278818450221011113181103105921873600835032777684752112011126814341059214636008242780749545022100111586710909604444360062100006737450221401119450554105924443600698032723104502204011162052701059241436007991246616745022040111386047210592444360082534375221450220401119044331043974443600682104562984502214011165906581059231536006822527578845022140111273489307373444360058500004257450220801115698611)
 (.leaf 7533444360065600002944450221201115725651070404443600528059176134502208011158483590662144436007790000771043023080111582329410592000360070400008388350271211112377523071214443600400000024773502710111124694550698344436002570000236243023100111215766107255444360063407145573410241211112150056087874443600477000073773502716111121958760000047038504310714839647521161111840510510592106360005505917496450220711112668328024454443600000000021884502210111154420820000062636000000000159945022161111772991508064444360000000003107450221611112576280080644443600000000031074502216111178770790500844436000000000281145022161111575583306894444360000000004609450221611112686997))
 (.node 1 (.leaf 6372444360011600008801450221611118262424063724443600567000083043302816111126817570461344436006392527654341024101111773560306611444360011300007480430231011118124991068144443600824000073924502210011178288310000044436007660074511939025121111572253200000444360089718758683410241211115861697105920001550714000073034502207111181819090846944436002210000650752519071111563352110592444360080700008241450220711115708160105920313600423020459804752110111155593491059261236004770000852845022101111595487310592009360077925202310430231201116099439085584443600885044689934502214011160904060750444436007930204780937026121111601895410592000360041300007496450221211116143872)
 (.leaf 471380040000004651430230711116059385105920003600567000084583902516111157450931059222136002070000565341024100111585087408787444360056700007325370260711112341826103774443600198285477864102407111125849701059210636003662555786547521071111603717110592106360023213217731450220711115734364000004443600000000008584502216111177883100000044436000000000287245022161111241404708064444360000000001570450221611112582243080644443600005000020454502216111156414750661144436000000073817445022101111255849010592444360082800007135450221001115244975080074443600567071051184102412011161907961059204336008982555883743023120111843859910592055360028300008317450221001113321523)))))))))
 (.node 128 (.node 64 (.node 32 (.node 16 (.node 8 (.node 4 (.node 2 (.node 1 (.leaf 10592000360083502027332500201001118119976105920653600824082179644502210011187046071059244436006890927451645022050111365386210592444360063934386071450221401115797595105920933600682140461734502205011184175500852644436008423175898645022140111838917709189444360068200008090390250711115435990096254443600486032454214102407111128640330698344436006270072674433028101111799338608775444360048600003466390251011112236799096634443600549000083553902516111155184130806444436000000000172945022161111817363408064444360000000001011450221611117841662036314443600000000037244502216111158498470368244436000000000362045022160111594046006372444360000000001887450221611112219105)
 (.leaf 6372444360000600001869450221011112108523056974443600719000056534102412011187007560000044436003411922578845022120111366250310592303360033400004408450220501116612349085364443600656294146364102407111128049241059200036002930000857345022071111814965910592016360060500008118475210711113464509105922263600682044372974502210011128598411059244436006891711231045022140111389010810592009360066904432310450221401112658324105924443600682305068844502214011133258101059244436006824084749545022080111593452910592314360055820378957450221401113068286086644443600766122875904302312111184719571059262636006130000820860016071111575345409314444360048600008539475211611115505758))
 (.node 1 (.leaf 9799444360046700008334475210711118651042105920003600627130976083702612111132020741059244436003840000829539025161111597900810592000360023200008614450221611115896938105924443600232000085284502216111188248101049244436000320000365645022100111325023008775444360040000007432390251011118041038103774443600273000078654752107111180700541059203336000050000586545022101111263838810592107360000000004109450221011117994981105920003600000000022864502210011179030321059233936000220201327647521100111817059303705444360000000003127450221611116016134036714443600000000030514502216111158368110681444436000000000372445022100111364463506611444360002800004317450221001112403691)
 (.leaf 6611444360000700004744450221001115442587105924443600828007173034502212011125212950000044436008532506880343023121111301009500000444360034109238665450221201115885095000004443600183032286144502212011159828900714644436006174080585639025120111581196007543444360079018387496450220811113138449084484443600221000051445251907111182776841059200008806170000465143023071111621235510592000360023200708710450220711112764195105920003600221000082414502210111129649181059254236008351393888545022121111332918810592444360068229327358450220801115758616076184443600790000045253702612011135307271059244436004000000835450020161111294860010592444360055800008317450220711115937099)))
 (.node 2 (.node 1 (.leaf 10592444360035700008585390251611115884530079284443600686000074553502716111158642050878744436005050000859739025161111302549308871444360041300008295390251611113192652105921603600000000049744502210111181850910000044436008190000365645022120111267201510592111360000700002596450221001115632002000004443600000000021724502216111158666330378444436000000000381145022161111587649203364444360000000003771450221001115897346068144443600322000038604502210111125973010482644436008190000711645022100111575673206611444360084800007315450221001118307382066114443600020007061444502210011128024160681444436008240200455941024100111282358905741444360070405704350350270501116008786)
 (.leaf 6383444360063941294966370260501112949598063144443600698328277633502705011161542400753644436007144108713545022071111566359410592000360022100005144525190711112617528105924773600799032087814502212111193574071059223536007141113880145022080111593866809604444360061717642310450220501118659621105924443600839069423104302312011161238831059242336006823058744745022050111335393507674444360074220758967450221401115724638076184443600842006973773502712111133386581059207436008031698541637026121111364068309213444360062103207386430230711112813435099954443600771019986844302310111131728191059244436003570000778150020161111325147910509444360025700008325410241611113213012))
 (.node 1 (.leaf 10492444360018600004816430230711113108030087754443600055000036564502210111157779480769344436004420000891155018161111323493108871444360027300006365410241611118438762105923393600283207541234752107111158048210439744436004860694428345022120111278234503460444360000000003620450221011116014053068144443600601000037714502210011131912600549644436002930000369041024120111281381805697444360083708088894550181201118754308082814443600771420181744502207111157292151059200036005170000440845022061111300234210592477360071416938885450221211114291450105920003600832043875504502210011130529710960444436005171950231045022050111610592809604444360082818907447450220801119516277)
 (.leaf 10592309360068240287635450220801118655635105924263600669182373764752105011181165830746344436008030688554543023121111394325610094444360051700008463500201011115837312105924443600100000088994502216111139485741059200036002210000827435027161111862134810592000360022100008295390251611115871542093174443600215000055854752116111150970491013444436001920000756741024161111585157309809444360005700004737430230711115728029098094443600000000042574502210111126826430000044436006640000410852519160111253609205357444360000000005290450221611112703817031874443600000000034684502216111154448020681444436002260000377145022101111348927601199444360000800682596450221001112976050))))
 (.node 4 (.node 2 (.node 1 (.leaf 1199444360079000004148410241201116069661056974443600698129275234502212011138163120569744436008700688898462515120111839911000000444360087505528955550181201113481836098524443600742000088704752116111154349901059200036007040549389443023071111576523609683444360002200008739575170711115896614105920003600714265573584502207111134993421059247436007140906900957517121111897634710592444360068217508818450220801113259425096044443600689137387124302305011162150060713144436008851686896745022080111890171310592444360013600008984625151611115839497105924443600307000089376251516111160395451013444436006560000552439025161111571176309809444360001100004577450220711113194755)
 (.leaf 9809444360014800008396475211611115827939105920003600000000073924502207111136204521059200036002730000843845022071111304163203080444360000000003362450221011115697492034164443600000000038604502210011130871200681444436000000000367545022100111838438900000448360000000002785450221001118176396038174443600000000077844502210011128142920119944436002930000269143023100111338261602010444360016403174662450220501113687136042694443600000000047444502205011136791790569744436008700437895162515120111324383300000444360089000008864410241201115683258080164443600704417553384502207111158182081059200036002210000793445022071111311623910592000360079007947297450221001114059675))
 (.node 1 (.leaf 10592064360079341838471370261001113025411081774443600858174323103902512011161072531059244436006821992711645022050111944272010592400360052837838708525190801118601450105924003600558043586715501808011186013960779544436006231001885150020080111593196809313444360079900008082525191211115043464105920003600528000069664502207111183139391059244436001040000889945022161111638300410592444360020700008317450221611114438928105924443600022000090477001216111167805581059244436001340000894252519161111602147810159444360062700668587650140711116432412105926263600819181169313502712111158887901059244436000550000575543023161111893295310592000360022100008333350271611113572736)
 (.leaf 10592444360023200008573450221611113676164056974443600028000034894502207011135181030917144436006170000837737026161111312689708787444360040000004387390251611115992767099194443600400000052014102416111159146900991944436000720000568943023161111586996409777444360061700008355390251611115605761098094443600004000055854752107111130241831059200036000200000705043023071111359069810592111360046700003894430230501118497219000005243600215000031344502210011179413270394344436000000000294945022100111845598801199444360000000004207450221001112682607042694443600870031587454102412011160458350000044436008900000883141024120111553813410592000360022104335777525190711115677489)))
 (.node 2 (.node 1 (.leaf 10592000360022100004904450220711118488254105924743600714187089444752107111136484701059221336006822709876345022080111315367908177444360082815212310410240801118914874096044443600807393288495251908011158412491059244436005491673868857517080111595452908745444360068906728080430231211113217999097934443600232000055654502216111158038291059244436003070000761345022161111865428310592444360034104337428500201611116021452105924443600226000089444502216111186903671059244436001160000896847521161111595353710592444360010000009010550181611117100257105924443600226000089764502216111163944011059244436001700000898267513161111441024810592444360023200008383450221611113921896)
 (.leaf 10592148360007200006966410241011113310363091714443600621000072713902516111157486570980944436002730000778641024161111357420209809444360018300008020450221611113439757098094443600011000045974752107111133648050980944436000000000761345022161111830041005217444360000000005221450221611115316362051054443600000000058914502210011130642100261544436000000000304345022100111301166700000448360000000003563450221001118172809038174443600000000049044502210011180019710569744436008720997860741024120111336696200000444360089010888876410241201114838008105484443600221000083705251907111133173690998444436001360000871045022071111883678010592007360083703127285250321001115909660))
 (.node 1 (.leaf 10592223360062315878528450220801118511593105924443600601006423104502205011157451750882344436004000993824145022071111300931110592444360019200008317450221611113463015105924443600183000088184502216111190842491059244436001000000895745022161111493678810592444360035700008833500201611114086669103984443600215000080903902516111160319281059244436002930000838345022161111442488510492444360046700008679390250711115660181099194443600782000055963502716111157355391059200036000060000677645022071111874872009604444360081900005456430230801113258273000004443600000000032884502216111154784990515244436000000000654245022101111374480305610444360000000006777450220711113476492)
 (.leaf 1199444360000000003798450221001112807308011994443600017000033044502205011129869330119944436007710312571137026120111632802401199444360081900005525390250501116804891000004443600835000077793902512011133843980790644436002210000490445022071111574344409657444360060501928241450220711116084449105926233600837000080463102910111130148901059244436005171583861445022080111575071104536444360089615099032600160201119064452105924443600431000083545002016111136683311059244436005050000824455018161111594358810396444360030700008208500201611116025258105924443600576000087814502216111160268111059244436002320000871045022161111597124010592444360018600008708525191611115819791)))))
 (.node 8 (.node 4 (.node 2 (.node 1 (.leaf 10592444360088204308711410241211115588301105184443600950089087253902512111159591231059244436002070000852641024161111592524110592444360030700008528450221611114280101104924443600232000088184502216111189368321049244436003570000876345022161111397696809604444360017000003836410240711113260948099694443600069000083574302316111159585670980944436000330000514543023161111858629009809444360047700008712430231611114118739098094443600000000073034502216111135138401059211136000210000903260016071111605800110592111360042329688926430231211118736876049214443600000000069394502207111157650610523244436000000000711945022101111551260705105444360000000005985450221011118644271)
 (.leaf 2615444360000000006426450221001113236874011994443600779006362223702612011145935300426944436008480000801943023120111595384100000444360086700008695390251201118535535000004443600870218487994102412011132732170998444436004670000838345022071111576256409682444360024701918816475211611116037961105920053600790006266293502710111136643410718144436005170773888250020080111643436109038444360068227548940575170801115889568078324443600714000038764502207111185619070914944436002570000440845022071111389029409793444360019200006641450221611114043578105924443600055000090156001616111158249231059244436001000000900045022161111490144510592444360025700008665450221611115595755))
 (.node 1 (.leaf 10592444360035700008801450221611115872311105924443600021000086354302316111165256171059244436002320000881845022161111580480110592444360023200008781450221611116161717105924443600232000087634502216111162081031049244436002570000872647521161111909398709817444360068907737661350271611116416790091714443600247000055253902516111183462271059200036000550000799743023161111891815210592000360000500006776450220711114316538105924443600704126189864502212111146284851059258936000000000642245022101111823378105027444360000000007363450221011116168804048574443600000000060734502210111159780510496744436000000000568045022101111528340104269444360083700008295390251201116709009)
 (.leaf 10328444360035701898334475210711115525382105923683600803000084384502210111163592890827544436008583369900645022080111579509810592444360001900009041700121611116156990105924443600232000086144502216111139841201059244436002320000848845022161111881337610592444360023200008665450221611118776527105924443600601000086144502216111161951821059244436002320000889847521161111399324810592444360023200008927550181611116360109105924443600232000083875501816111191353351059244436003660000835450020161111442259910077444360019800008263475211611118721188095794443600009000053434302316111159847521039844436002320000854357517161111601287910492444360028300008463500201611119212062)))
 (.node 2 (.node 1 (.leaf 9233444360055806504822370260711114339568097804443600467000076463902516111191660090917144436003340000740337026161111838656509809444360014800008762525191611118800576101734443600164030876814102416111137570031059221836008030766848845022120111383188110592218360084200002884350270501113865333046794443600069000054514502210011157812880467944436000000000257945022100111319235700000583360000000002129450221001112923657011994443600825006183254102412011169738900426944436007090000638435027050111406436609762444360018600005251450220711115652793097624443600183000042574502207111155847550968244436003070000474445022071111567587009973444360061700008520525190711115965932)
 (.leaf 10592013360084636167407270311001114506696096134443600849420584643102908011144663170903444436008070000901745022080111604688706204444360046701889039600160201115771650058594443600803000090396001602011170662320780944436005171563900160016080111606200910592444360010000006755475211611116554008105924443600116000083896501416111164379141059244436000190000712570012161111977914110592444360002600007605675131611119558066105924443600366000084384502216111190716671059244436003570000861445022161111398313710592444360023200008763450221611114158764105924443600232000083174502216111164188951059244436002210000811847521161111425261410492444360023200008694500201611118811737))
 (.node 1 (.leaf 8601444360023228477681410240711114284108098094443600322000088184502216111138570191059200036000030000677645022071111446170410592111360028303078711370261211119270234105924443600215030788764102412111161332351059244436003410000870939025121111447884110592218360078200002884350270501115947423000004683600341000024224502210011155478110467944436000000000231145022101111323663700000583360000000002758450221001113156881000005833600000000024224502210011183052270000044436000080000456645022100111830639101199444360074201885574350270501115368154063524443600682000045103102905011136384710790644436002470000425745022071111603490410592011360070939238636410241001118710076)
 (.leaf 5134444360114100009017450220501116159637105924443600022000082646751316111196113351059244436001860000901950020161111440409010592444360011600008853450221611116132506105924443600113000088534502216111163173661059244436000190000901170012161111838682010592444360036600008665450221611119028560105924443600366000088364502216111189619381059244436002320000866545022161111415420610592444360036600008432525191611116249015105924443600366000087985751716111165082281059244436000190000898970012161111470732710592444360036600008537650141611114963709102324443600704018785484302312111159606250937744436003840000824455018161111586240408402444360000000002944450221611113951402))))
 (.node 4 (.node 2 (.node 1 (.leaf 10398444360019800007047525191611116247163104924443600024000086557001216111159685970964044436007710873708035027071111435438009969444360013401877710430231611113493364099694443600136000082414502216111141570671059200036001040000853947521161111895005810592111360003300008975575171611115092376105924443600232106586133702612111146123590381744436000000000316445022100111538418601199444360068600003679330280501113743387042694443600779000042863502705011189402940244544436006430000505933028050111457161202445444360059205346053310290501114124146063524443600623000056993102912011141358370790644436008360000365645022071111612900410592368360061300008062500200711115832463)
 (.leaf 10592000360083707518069270311011118644837105920003600704030478582503210111137114131059244436003660000880145022161111501671810592444360047700008302525191611116223873104854443600232000081744502216111147297041059244436001480000831855018161111964551510492444360001900008113675131611113589753104924443600232000084635002016111160836900886444436007040000416935027071111602436710059444360001800003304450221611113625941099694443600467000081623902516111139699431041344436001440000841643023161111872573910592444360015701868854430231211114906612105922183600777182289864502212011192748671059221836008070869900045022120111628442010592318360082500002739450220501113771223))
 (.node 1 (.leaf 10592114360002800004003450221011115485241000005833600018000022004502205011158448420119944436000600000365645022100111842676304269444360077700005479350270801114321080067014443600777000069553102905011140417911059200036008370000866545022101111603433710592444360087000008502310291201113862944105924443600069000088935751716111161487411059244436000600000813750020161111625318510592444360006900007920650141611115891925105924443600283000089444502216111145946641059244436003490000893047521161111585650210330444360005500008320650141611114528507103254443600215000055854752116111149046191059244436002260000850357517161111602847710592000360023200008780475211611114449423)
 (.leaf 10592000360023200008476525191611113721879092604443600136000067125251916111144678081057744436000280000833967513161111958377810592444360018600008568410241611114846255090074443600232000052413902516111144739421041344436000240000854357517161111522675310592000360001700006535475211611113885201105922183600682030390064502212111187426841059221836008240000898645022120111632514000000461360066400003287450220501118938493105921143600000000021304502216011135177920000058336001130000257745022011111351561700000583360004800004283450221001118371265011994443600000000034894502210011155448150119944436006980000220435027050111390126901199444360069800005285330280501116178427)))
 (.node 2 (.node 1 (.leaf 2445444360076600008107310291201114175720024454443600689041973743102912011143614570515344436008070000381737026050111421118910580444360023200008957450221611114237984105923683600558000078384502207111141297650983844436004774154903660016140111554341710322444360033400006737450221611116077240105924443600400000088854502216111142941151059244436005490000891645022161111415545410592444360015700008999650141611114575666105924443600341000089164502216111145958191033044436000190000841970012161111437874510431444360013400008133600161611115029737105924443600207000086415002016111148231421059244436001440000903055018161111452749310592444360016400009042600161611113848572)
 (.leaf 10592000360023200008499475211611114559829105926263600232000082285251916111188356191012844436000260000733250020161111940089010577444360013400008543575171611114757806105924443600221000087625251916111144685180886444436006890000531435027161111878775409007444360061700005448330281611114336735100264443600000000073924502216111187799551059244436000200000897362515161111477898110592444360001900008973625150711116360210105922183600689000086654502212011145415020000046336008450000395345022050111474832910592444360011300002091450220501115329104000005593600021000025964502205011154949150119944436005490417408933028050111570323001199444360068200004213330280501116037768))
 (.node 1 (.leaf 4269444360076600007000350270801115264797024454443600689000074483102912011160803700759844436007660000350147521081111410138710592272360068600002730475210811115927292105923683600307000048274502207111143931831059236836005490000861445022071111590150310592000360083700008528450220711113955690105924443600704000090195002010111161750120925144436009350055902757517140111424841910592444360002700008987550181611114868666105924443600467000070304302316111159955721059244436003660000881845022161111447247610592444360001900008050700121611115217059105924443600247000089675251916111163494721059244436003660000895745022161111884673910431444360023200008573450221611116371253)
 (.leaf 10592444360023200008818450221611114821283105924443600100000090136501416111136384300890444436001480000530550020161111569740510492444360002800006792525191611119463612105924443600157000082924302316111150816360936744436006050000518633028161111393326410592000076043105274310390251611114391946100594443600072000088465751716111140633441041344436002150000812341024161111409269710592444360002500008985600161611119340332105922183600779018365624502212111149727761059221836008240183895745022120111937444800000444360084800003847450220501113870963105924443600643000025164502205011157614391059244436006430000259645022050111369439900000583360055800008885450221401114928633))))))
 (.node 16 (.node 8 (.node 4 (.node 2 (.node 1 (.leaf 559360080700005653410240201116028113042694443600766000051953502705011150679780426944436006390416608833028120111659902805798444360068600004615330280501115918860057984443600824000053183702605011161249451030644436002320000896745022161111629952710592272360068900003501475210811114033287105924443600656000090426001610111158862520993844436007901925904965014140111581171010592444360001800007057450221611114283431105924443600400000077184502216111161750311059244436000000000760245022161111424548810592444360001900009047700121611119195098103304443600357000079765002016111162152701059244436001760000847652519161111889453710592444360023200008710450221611115925480)
 (.leaf 10592444360023200008781450221611119227714105924443600232000090174502216111149206331059244436000210000904970012161111911169810592444360017600008614450221611116123113105924443600019000089897001216111135627881059244436000480000862865014161111629595910592444360023200008780475211611116062041105920003600384000079055251916111157464400919144436000240000368050020161111584596410577444360005500005144525191611115828880105774443600104000073075501816111149597521059244436001700000870060016161111475678810413444360001100008020450221611114514758100264443600009000073924502216111160496611059200036000250000795347521161111451345810592444360001900008830625151611115563656))
 (.node 1 (.leaf 10454444360054902988914500201211115770929105922183600656018190074752112011194617981059244436007901226835450020140111936446210592444360080300006847475210201116288894000005833600634000079144302302011147039850221644436008070000622237026120111444308404269444360068200006053310290501115257979042694443600779029856323502705011163036920426944436006270298716331029080111924922805516444360082800004286350270801115506799076424443600669000025754302308111190004501022544436005280000861445022071111888709410592444360042300008943500201611114645347105924443600000000065624502216111146861351059244436000280000904867513161111494056610592444360036600008993450221611115122630)
 (.leaf 10592444360036600007718450221611115812179105924443600192000072524752116111160653191033044436003340000723545022161111976548210330444360033400007235450221611116451719103304443600164000064264502216111162984591059244436001570000893145022161111510418410592444360016400008611525191611115010266105924443600019000090377001216111190327841059244436006013235898755018161111605244710458444360001100007496450221611114357213104584443600009000076134502216111147396391044244436000330000791443023161111604259609946444360000500007320475211611115975855105924443600322041289774752112111193521861059244436000190000877162515161111875942210592000360057621717687450221211118638576)))
 (.node 2 (.node 1 (.leaf 10592218360082404128986450221201119832717105922183600828227090064502212011195352671059221836006050522900850020120111608574500000583360054002977574450221201114775225105924443600779000086684102402011195120950119944436006340000342833028050111585133004224444360074200003555350271201116192305022164443600779005370003502712011194022900426944436006560000712433028080112029179005798444360074200004944350270501114339892105920003600016000079344502207111149505521059244436008421375901745022121111492244010592444360036600008899450221611116027830105924443600000000065084502216111161983371059244436000100000776945022161111925014010592444360036600009000450221611116481588)
 (.leaf 10592444360000600007297450221611115514078105924443600113000072354502216111197799961059244436000570000770565014161111412735410592444360016400008476525191611114478357091914443600006000041234752116111146631281057744436001340000565755018161111410396210592444360023200008532550181611116519180105924443600170000088475501816111163521031043244436006050000864267513161111642740509746444360077700008163330281611116646216104204443600283000078093702616111147122491059244436000190000866762515071111414196010592218360069800007116410241211114440268042244443600669000054933302805011148446740426944436006860000530533028080111610552204269444360070400005632350270501116325959))
 (.node 1 (.leaf 4269444360071905205900330280801116108113057984443600698000053143502708011188334751059244436002320000901245022071111617100110592000360068200002996430230801114676667092054443600232017845774502207111158371801059244436000000000663045022161111623778010592444360001300006678450221611115861238105924443600621000079094502216111158177471059244436004000000779545022161111907773210330444360054000006939450221611116036392104314443600170000064835002016111164320441059244436002320000804047521161111895760210592444360023200008098450221611114905968105924443600144000090345501816111151832031059244436002210000899262515161111565854010592444360001900009037700121611114101985)
 (.leaf 10592444360005500008713625151611119501766105924443600104202088456501416111164492801059244436006340000860539025161111538066210592444360071400008440330281611115879064105924443600026000087124302316111162093511059221836008070051609543023121111466696310592218360068200007737550181201115981210105922183600777000089164502212011155432300454544436001480000425745022050111865570501199444360077900004686390250501114573057042244443600528000055793102908011162684580280844436006230000722335027120111934993106763444360068600003753350270801119301909098554443600450017676814102408111148708111059244436000060000898645022161111438991310592444360000700006652450221611114747234))))
 (.node 4 (.node 2 (.node 1 (.leaf 10592444360001100006678450221611116178883105924443600257000080104752116111159616341059244436003660000757445022161111478357910330444360001600006426450221611118896556105924443600682000073584502216111156871781059244436000190000775370012161111515452410592444360023200008924600161611114895003105924443600019000083567001216111158796301059244436001440000878965014161111578012410592000360003200007885500201611114470727091914443600032000041234752116111188883461057744436001440000573055018161111572218910577444360019800507516550181611116026250105924443600164000086974102416111163613941059221836007770000723545022121111885968910592218360068200008253525191201119613739)
 (.leaf 8482444360087002938783430231201119123897084824443600878000084213502712011152683560569744436006820000865041024020111532165004961444360052800003632310290501119007126042244443600766017669233502708011157079210422444436006430000541035027080111621472301993444360077900005632350270201119427657105923733600026000048843502702011148580880632144436006980837497433028080111615679706941444360087009336411310291201115700517093284443600846000080984502207111157596791004444436007770000857345022071111538631209467444360082807318568410241011114885198105924443600013000065834502216111154738061059244436000150000668050020161111528259210592444360060100008074550181611116047232))
 (.node 1 (.leaf 10592444360005700007972625151611116927381105924443600017000060714502216111183993951059244436000190000904170012161111561210410592444360022600008976450221611116007141105924443600226000072075002016111195625341059244436000330000729252519161111615282010592444360001900006976700121611115161110105924443600226000086186251516111156513431059200036000080000804047521161111458160010140444360002000005855525191611114928534105924443600055000086885751716111163202001059244436004310000756952519161111505317310592444360017600008757600161611116038383105924443600714000089415501816111153019041059221836004860000535331029120111879829710592218360068600498159475211201115879458)
 (.leaf 10592218360062100008476525191201116108801105922183600643000071344752112011188567721059225536006340292735845022120111879256110592444360084402926203410240201115835924047934443600627000039173702602011188532650422444436005400049494131029080111610274910592425360022105155448330280801115419672019934443600467000049443502708011149119411059237336005170000740337026080111502930806536444360068600005455430230811115895625094524443600933000050485251907111158043051059244436005580000902757517161111582460810592444360002700008967450221611114373228105924443600000000067835501816111151988131059244436002320000798645022161111885943610592444360036600009017450221611119398902)))
 (.node 2 (.node 1 (.leaf 10592444360036600009017450221611116084722105924443600018000061734502216111188642151059244436001480000586445022161111919158510431444360005700008387550181611119495552105924443600148000089115501816111198723351059244436002320000546662515161111598540010592444360023200008058600161611115264925105924443600144000089555501816111191819321020144436007770000895745022121111909159510592015360080304048834475211211116315341105920103600709000053833302812111193360311059221836007140174659927031121111552829710592218360071400005107270311201118597520105922183600714000050812703112011157222911059221836007420513652129030120111897775610592218360069800007902310291201115895196)
 (.leaf 10592218360003200008157525190801116276626105922553600442135876525751712011145153081059244436004860404894445022120111562238108482444360085800007392450220201115971219105924443600682000084414102408011160728490413144436005280000383533028050111595609807481444360000600006032350270201116274643035544443600009000054793502702011162647430669244436005490402568943023081111632803509387444360030700007710430230711119092170093874443600307000073924502207111158823110940144436006430047775339025080111614576510592444360000200006423500201611116046261105924443600000000067835501816111194093251059244436003660000663045022161111934854210592444360018300008891625151611114873754))
 (.node 1 (.leaf 10592444360023200009032600161611114694030105924443600232000084635002016111152270821004544436000550000473655018161111477549509642444360060100008814525191611116394744101794443600009000055225002016111148989561031444436002320000629955018161111930368110592444360013600009026625151611115506386102314443600232000086806501416111150942281059201036007040000557335027120111479468810592444360068202893883390250201115983618069624443600932000042964752108011192215480938744436006390000788541024071111484995310592444360002100006458450221611114652304105924443600000000066304502216111156994361059244436002730000801150020161111569991310592444360030700009041575171611116188347)
 (.leaf 10592444360040000006234450221611114639936105924443600018000077954502216111186629641059244436000640000864960016161111618495610592444360022600007234625151611116065856105924443600232000089746001616111157006131059244436002070000877162515161111639795410592444360002500005048525191611115229196105924443600134000090406251516111155124311059201536008241821898645022121111551958010592165360022100006012390251201115991594105920343600164000071795751708011163483271059211736002570000697250020120111499786010592139360033424007000410241201118971112105924443600176000088685251912011148055601059244436008251098880939025120111688836302745444360093400003966410240201119111598)))))
 (.node 8 (.node 4 (.node 2 (.node 1 (.leaf 4697444360057600005002350270201115504403053764443600682028832703902508011191660430537644436006230000317741024080111610918510592425360000000006032350270801116564665099144443600963000027465251908111159550850991444436009820000400655018081111645131410592444360001900009051700121611114632324105924443600033000090527001216111191788311059244436002210000782045022161111931807710592444360030700009041575171611115476392105924443600010000065334502216111143281681059244436000180000735845022161111573575210592444360036600007417450221611119009131105924443600008000069394502216111189940991059244436003660000711645022161111951484710592444360036600006641450221611119538807)
 (.leaf 10592444360000000005358575171611118774790105924443600215000090456251516111189323901059244436001130000665265014161111481001510592000360000200005276475211611114532649095144443600486000059725002016111159414211031444436001860000862255018161111929207310592444360002000005144525191611114957970105924443600207000088465751716111190527201059244436000570000902757517161111568863010592444360002400009038675131611119496655101234443600669000072145751716111168224831012344436006820000774557517161111877836510299444360006400008062500201611119148341105920463600585000060943102908011159799341059244436008770000853935027120111596504209658444360087700008555350271201116647234))
 (.node 1 (.leaf 8110444360086210958967450221201116554998105924443600714000072014102408011164623161059242536005400000662143023080111588279809914444360003300004577450220811119242387081704443600682000034894502208111190562490817044436002930615705043023080111564924610592444360022100006457475211611115188397105924443600069000071866501416111166915791059244436002150000903352519161111464728810592444360036600009012450221611114739022105924443600366000075744502216111157772701059244436003660000723545022161111487750110592444360000000004177575171611115950551105924443600104000089936001616111157926051059244436002210000598760016161111540867610592444360023200009044600161611116322873)
 (.leaf 10123444360070400008800475211611114419296105924443600307000089736251516111160037391024244436006980397562335027121111537752710592125360024700008251550181201115042827016404443600682000043103902502011158818870652644436006390169855339025140111578173807963444360042300006604310291401116006121099144443600592000049044502208111165216801059244436000320000892041024141111602834410592444360035700009038575171611115535830105924443600400000064844502216111189121251059244436000180000779545022161111571113610592444360001800006426450221611115419978105924443600283000078894502216111149922801059244436002830000741745022161111580113710592444360036600007769450221611116540961)))
 (.node 2 (.node 1 (.leaf 10592444360028300006997450221611119958156105924443600232000068556001616111153069391059244436001860000903662515161111487381510592444360017000009031625151611116127627095784443600104258786715501816111157268261059244436000270000544850020161111916466310592444360023200008757600161611115955926105924443600170000088465751716111153032801059244436001440000880667513161111924119810123444360059200008227625151611116007272101234443600592000086115251916111187859291059244436002320000870852519161111933311210562444360060100007153370261211115143308105920303600845000048213302812011149689051059204636006981980680929030120111487611610185444360003300007490525191201116089844)
 (.leaf 10592444360079000437036390251411116105522054464443600682000066004102408011159875450544644436006820000660041024080111917797304697444360074201684335410240201114764331059934443600845000074014302314011196070701025644436003410000678829030140111507414910286444360079300007878370261401115720719105921943420585000052334102404111157924310991444436004671552514543023101111519033005705444360069800003952450220801116027869103554443600779000086423502714111161452740940644436004500000902347521021111490233410344444360096701678625370261201116015515105924443600247000074905251916111160024771059244436001760000904762515161111971501110592444360047700006630450221611116026017))
 (.node 1 (.leaf 10592444360001700006458450221611115616778105924443600366000090124502216111160438870986144436006340000892852519161111582544710592444360000700005102475211611119588211101234443600134000083206501416111158526370997444436008070611861337026120111593907810592030360077100005224290301211115939164105920303600771100481112903012111151619161059207136006340282676529030120111916544410592125360028302828291600161201119267839044624443600623004278854102402011164312430544644436006820042693341024080111544202304356444360068200003657390250201114717911088754443600400000090064502202111161744511059244436001860041675457517161111481869410592444360001900009052700121611119830435)
 (.leaf 10592444360001900009052700121611116411425105924443600019000090527001216111162654831059244436000190000905270012161111584167410592444360001900009052700121611115935095105924443600019000090497001216111161267061059244436000190000905270012161111987350710592444360001900009052700121611116418379105924443600019000090527001216111161644701059244436003660000897645022161111534152110592444360050500006654475211611115919366105924443600366000090174502216111199567601059244436000480000709760016161111584021410592444360017000009031625151611115310716105924443600232000079296001616111163108471059200036002320000792960016161111613857810592000360023200007650600161611114452777))))
 (.node 4 (.node 2 (.node 1 (.leaf 10592000360025700007342600161611114375842097254443600232000066414502216111157135651059244436000550000903565014161111561092310592050360078200004859290301211119020887105920273600634000072644302312011189708891059244436007140000565341024020111546124809604444360066400004922390250201115293528090294443600819377088764102412011165852850970344436004231000685131029120111596049109940444360097200003963475210811115753444099144443600982000044084502208011191437210895144436001440607797731029041111624557907954444360069800008555350270211115853878066844443600664004071143702614111154821011059244436001160000770465014161111531071510592000360042300006207450221611114963982)
 (.leaf 10592444360006000009030650141611116478673105924443600004000071055251916111160099041059244436000000000688445022161111574297910592444360010400008062500201611116113974105924443600026000090377001216111150512991059244436002320000903960016161111499831410592000360023200006918600161611115716596095184443600349090862315002016111158899951059244436002320000888250020161111563940709095444360057608147358450221401115308246105922873600714000051812703112111148384271059207136006980499648233028120111505065101650444360078208146445390251401116046351043564443600682000037244102402011151855600622644436008880000474445022081111929084208478444360014400008321330280211115834599))
 (.node 1 (.leaf 7753444360077900008642350270211115220998084294443600766000070363902514011157540721059244436001160000905167513161111547798310592444360022100009047625151611115802524105924443600060000077836501416111153722641059244436000190000905170012161111593538910592444360024700008988525191611119165017105924443600221000090335251916111161053301059244436002320000905167513161111586843510592444360023200008128675131611116142425105924443600148000089755751716111162140091059244436000190000904170012161111888340610592444360000600008966550181611116082607105924443600060000090506751316111190591391059244436002320000890960016161111983882910592000360023200008557600161611115935777)
 (.leaf 10592000360023200007174450221611114625242105924443600002000047805002016111159912401059244436006270000904170012161111425284010166444360022600007507700121611119950993105922143600283000077946001608011154091680844944436004421168737055018120111593407804538444360068200004442450220201119756993056704443600856000078384502208111159381520622644436008280000636143023081111613233410592444360002100006783700121611115891217105924443600019000090527001216111198599181059244436000200000905167513161111544680610592000360035700009017450221611116256252105920003600366000065334502216111152025021059244436002210000899652519161111609145310592444360000000007972500201611116035379)))
 (.node 2 (.node 1 (.leaf 10592444360023200009021600161611119661999105920003600232000086496001616111152899490876744436006050000876252519161111571505410592444360002500004280500201611116163994105924443600104000073705501816111191662291059244436001640000851560016161111587706910592444360058500009028700121611115795114105824443600232000087995002016111193942001059244436002320000855550020161111570409310592132360060100006905575170801115707100086524443600549016266885002012011198506720991444436006862286632239025021111584767603108444360068200005809390250201116329613062264443600366000054163702608111159094380622644436002320000396637026081111558024108859444360097700008511430231401115891790)
 (.leaf 7601444360062700008605390250201115618594072904443600803038773253702614111163953431059244436000280000810870012161111633967410592444360000900007931575171611119476936105924443600019000090497001216111162459401059244436002730000779252519161111617662610592444360000000009010550181611116099459105924443600000000071164502216111164835511059244436000040000757050020161111536032810367444360021500005408450221611115038465105924443600022000085376501416111144583941016644436002320000877955018161111602304110582444360023200008881525191611116002596105925163600714080750582903012111147189281059244436007990602513729030121111561082910592000360083500006411310291201119265807))
 (.node 1 (.leaf 10592222360062300377245390251211115297559088064443600528116188155002012011159195241059200036007041728693341024080111584117810592000360068219026811430230801119447602071814443600669000054163902508011159413611059244436006640000603743023020111574862305022444360070400003757430230201119621741082314443600366000088994502214011199681490745344436006210000864037026020111584820210592444360000300007657500201611115933431105924443600617000079037001216111160822131059244436004670000818470012161111640603110592000360002800008986450221611115829649105926263600366000090124502216111154251691059244436002320000905167513161111535184910592444360001900009049700121611116597581)
 (.leaf 10592444360001900009051700121611114867722105924443600019000090506751316111158956931059244436000130000904965014161111999501110592444360001400007990650141611116077971105924443600000000065424502216111158447961059244436006050000882370012161111582833110592444360023200007484600161611116078882105920003600232000081744502216111148932111059244436000220000871362515161111563662510592444360040000008604600161611116029044105924443600232000083344752116111158089111016644436002320000806250020161111907500410582444360023200007953475211611115276426105925163600540000051103302812111149295510708244436007900000860741024140111599831206282444360082400003337350270801116223914)))))))
 (.node 32 (.node 16 (.node 8 (.node 4 (.node 2 (.node 1 (.leaf 4952444360023200008174450221401116555709105920001700682000087114102402011196330510491944436008530000831737026020111948192910592444360005700009047625151611115734394105924443600257000068256251516111159334311059244436001700000799357517161111571537110592000360019800009029525191611115856471105924443600013000090225751716111153743461059244436006170000900470012161111576943409243444360077900008929500201611115410096105924443600008000081935751716111193062391059244436001360000805070012161111438090410592444360018600008318550181611115291898000004443600790049164823302812111193956071059200036006820159591539025121111906845605446444360068200004264390250801119583860)
 (.leaf 5941444360066901598487410241401116624535105921793600858000031774102408011190812651059200036007990000313135027080111905552810592444360014800008075575171011116192674105924443600617000090527001216111160007540000062636001040000904170012161111569259110592444360059200009035575171611119590316105924443600605000090305501816111192409811059244436002320000904867513161111552681210592444360001900009041700121611116289198105924443600019000090516751316111165093111059244436000000000607145022161111911509310592444360000000008956525191611115946641105924443600627000090337001216111162309981059209636000240000894057517161111610025810592444360043100008978500201611115938617))
 (.node 1 (.leaf 9629444360023200008878575171611114629730097704443600643070090295251912011158046831031244436008583592886441024140111581031310592234360065612396790410241401116284704105921543600825000087634502214011157265611059218136006560000717337026080111542268904397444360066900006966450220201115729550105920003600617000065344752116111157061801059200036000270000718665014101111620341910592444360001900008165700121011115461091105924443600019000081486501410111164000791059244436000040000791252519101111570826010592444360001900009052700121611119943716105924443600019000090527001216111160413111059244436000190000905167513161111611057110592444360000200006205475211611115445950)
 (.leaf 10592444360000200008966550181611119743805105924443600134000088945501816111162385600943344436002260000783845022161111930920309791444360023200006996500201611115433474105920003600828000053753502712111148762140512644436005760000870852519140111598101210592432360063400007496450220201120229363105924443600027000089636251510111192457271059200036000040000763045022101111594436610592000360007200007404600161611115910520105924443600100000086806501410111194739571059213736006230000903055018161111513351610592444360002500009049700121611116220008105924443600357000088704752116111156849941059244436005850000900257517161111582335410592000360058500008739575171611115956877)))
 (.node 2 (.node 1 (.leaf 9027444360043101554797410241611115396440088894443600015000041234752107111152870250777944436006980000537535027121111900631810488444360082401558584350271211115838057081394443600934000082832903012011167181871059215436008710379869843023140111920555004854444360077103798528450221201116160723070654443600824000087834302314011159684720420044436008030031745441024020111949930705762444360061307925440410241401116287409043664443600257000054163702602011193579051059244436000250000904970012141111639903310592444360015700008832525190711115270074000006263600226000080916001616111159311481059211836000690000904470012101111619630210592444360042300008882500201611115942866)
 (.leaf 10592444360013400008503575171611115732087105924443600576000084435501816111154633851059200036007140000676529030101111565638409488444360023200008846575171611115797885094334443600024000085086751316111156138861059244436006640378900147521141111598927810592260360087700008745410241411115087525041564443600617000054163702602011163659690615544436008320377468639025081111576397205269444360058503776966410240211115807109105920003600021000079867001210111158151751059244436006230000901245022101111553618510592626360038400007404600161011115534365105921183600307000086087001210111156024311059244436000600000904170012161111984399310592444360005700008923625151611116408510))
 (.node 1 (.leaf 10592444360044200008851500201011115779788105920003600072000085555002016111156913900960444436004670000879857517161111569043310592000360077101538151290301011115772085089974443600890000031394502207111150645020849744436001920000845557517071111587782208534444360070400005447330281211115274788105924443600592000090095251912111162769011059209736006820000597441024020111587814206687444360071432368944450221201115829527036454443600875026640804502208011157985260605844436005400000729943023020111954881110592444360052800008892600161411115222770104724443600558000079736001610111150123031059200036000210000857262515101111571933510592444360032200008713625151411119521764)
 (.leaf 10592118360011600008561700121411115552664105924443600226000064166001616111162819511059244436000600000904770012161111573366010592444360006900008864600161011116027768105920003600400000056644752110111151659111003244436003490000790062515161111577821110592000360048600006175575171611116090754105920003600183000076215751716111198556010960444436001340000748460016161111551207110592000360071400006884290301011115770075085944443600232000086885751716111157085610920344436001440000723760016161111580629808868444360000900006171475211611116153064105926262570617048257554302312111159208950894944436006890000900850020140111575277804123444360115900008840390250201116767027))))
 (.node 4 (.node 2 (.node 1 (.leaf 10137444360060500008762525191411118597954105920003600413000090385751710111161461500767144436004130000603957517101111553161810592444360018600005735650141011115956209105924443600060000087097001210111196305541059244436005490000880145022101111582125209999444360010415755709525191611119341203104714443600060000085617001216111160768780960444436000720000765060016101111581727010592498360061300005653410241211115828333102224443600617000089684752114111162846621057144436006860000801741024140111584270408841444360083900288976450221401115892636088414443600689000081594752108011159806520415644436006050000633335027020111609887406798444360095101497171410241401116385694)
 (.leaf 4769444360054000008357430231401115985130054654443600879000088714302302011161148971059200036006210000668850020090111584320210592184360062700006197575171011115131519105925853600221014990146251514111189463911059248636000550000890762515141111930186710592001360006400005477450221011115877092105920003600019000068134502210111151337851041444436000600000735270012101111609245510592096360082400004887330280901115822990093234443600719000044904302316111159158740932344436000210000489437026161111604021808316444360011600007855575171611115700461093314443600057000064466501416111156800150632744436008390149603235027120111579020009417444360054900008555500200901115337648))
 (.node 1 (.leaf 10592000360065600006592500200901115763998105920003600623000075504502209011161281031059200036004230000825155018090111571154110592626360066900006020550181411118911564105920003600634000065065501814111187379131059211836002260000898755018141111901738310592118360051700008555500201211115710468105921183600104014870155751714111189326761059236136000240000898852519141111586804910592444360006000009044600161411115964043105924443600858000090245002010111160378501059244436008530000904362515101111608362910592625360063900008607410241011115319168105920003600057000059494302310111152798190960444436006820000717141024101111510384110592000360080300008206350270901115900143)
 (.leaf 10592096360082400005375350270911115792240105920963600682000026163702612011151535750915544436002320371886557517161111580523208660444360065605835421410241211119292171097094443600207037147743902514111156874310467244436006820000443439025020111642757004156444360069800008219430230801119413763063674443600978002587284102402011163301770984844436005280000869450020140111629075609231444360041300007525525190901119031110105921183600215014790355751714111160223520946044436006170000892755018100111595449810592108360006000008969700121011116364745105921083600060000089347001210111157998011059210836004860000714743023101111559605109604444360065600006195310291011115709294)))
 (.node 2 (.node 1 (.leaf 10592000360056700007200370261211115092277105920423600669000069484102412011159376541059232636006860147675937026121111570502610592204360087903687379390251401118471638089674443600621000090165751714111153307411059207636001860000737545022090111712988310592558114086700008039410241411115818880105922593600714000076604502214111192469701059205336004130000658555018141111889916310592118360054900006484475211411115701534105920563600257000090006251514111192406121059244436004231971891155018141111610262710592518360028300008781450221411119474904105921083600000000070574502210111160657541059210836000480000901170012101111991144110592108360006000008969700121011116643735)
 (.leaf 10592000360068900005169390250901116026705046504443600656014674323902502011157723210846744436005400000615837026140111617616003858444360063422834586330280211115894878096644443600283000073934752108011163079391059203536001830000723545022090111571880310592022360050500007602450220901116349498105920003600592000054554302314111153511101059205336004420000674862515090111539513907896444360062300006238430231411115920460105920001230623000078175501809011195297801059200036005170000656245022090111570367710592444360047706836484475211411115624149105920000440384000077365751709011157250321059210936009010000565755018121111568301410592256360056707775954650141211115794811))
 (.node 1 (.leaf 10592444360089600008836450221411119932272105925093600366000084403302810111160154401059210836000260000899965014101111969350910592108360006000008948700121011119926083096044443600714000083793102910111157335141059200036006690000563939025090111544879210592444360001900008937625151611116029311089434443600024000039524502207111160814351059244436007770259865337026120111563339208769444360071901447054330281011115757644105920362930623000078204502209011155456091059200036006820000765943023090111564696210592566360064300008926430230911116140057105921763600025000089936001614111159323671059210836001360000869667513141111592997410592108360001505787323575171211116152537)
 (.leaf 9649444360011600004545390250711119752498092824443600019000088306251516111153747150985844436000190000807862515161111588436209749444360030700007594550181611115688141105334443600689000079344502216111193294311037544436005920022901655018080111905758408660444360066900225990410241411115799239088414443600885002286553502712011193143200958844436006980000846431029091111618698605931444360064300217030430230211116687106095594443600384000083655251908011160688860000062636004230000694352519080111594028210592130381058500006167450220801115962342105921453600477000078735002014111156598761059205336003570257763045022090111596836810592286360055800007574450221401115687029)))))
 (.node 8 (.node 4 (.node 2 (.node 1 (.leaf 10592286360071400007629475211401118989712081704443600517000089246001614111189042610817044436002730000549847521141111569426909460444360046700008885450220901119613977105921083600605000089584752109111160295180960444436008480000827435027091111597369709604444360071400008246310290911116034144096494443600486000085484302316111194767441053344436006230000761345022161111556269907919444360051719157575430231201115937686096044443600621000084663302809011160387510985344436007091913837429030090111559298310578444360062300008306310290811115797226097164443600613234988994502214011159856340949644436004000000709043023080111611325410592099360062700006641450220801115591637)
 (.leaf 10592000360062300006298450220801115741420105920003600605000076855002009011155090041059220036004230000768745022090111519901010592000360002700006269475211401115601516105925093600819000086423502709011160752491059248536008460000871141024091111582590810592108360059200005928370260911119423868096044443600853000086663902509111159164141059200036008070000537633028090111928282010592000360041303634335410241201119382927105924443600592000084884502216111158132621058144436005920000900355018121111486179706597444360083700008655350271201115206946062974443600505000085673902502011162231160355444436008910000847731029140111954841309716444360069800008655350271401116336771))
 (.node 1 (.leaf 9496444360025700007526430230801119763625105920003600742000079105751709011192842621059200036004860000768745022090111576879910592200360048600007630450220901115264335081704443600247000087814502214111159896001059217636008190000902757517090111582641510592176360043100008177525190911119559043105926263600862000086193902509111160354051059244436007420000861445022071111591825310592444360068900008528450221611115984966105924443600232000085484302316111157850770835444436009390254901552519120111590775210419444360062101409016550181211116451841090704443600835000088204302314011158766730960444436006430000849433028090111581395606297444360066400008539350271401116202081)
 (.leaf 3554444360088200008502310291401116038819035544443600799000083022903008011159681820355444436007041350833829030100111619112008350444360043100007545450220801119661810068684443600486000072354502202011159670091059200036006270000757445022080111591677510592000360068600007950575170801115574087105922153600549000083855501809011154466171059200010504860000771845022080111532023910592286360055800008941550181401115941341105920003600689000077395251909011157099861059227636007660000886950020090111620331710592104360057600008801450220901115719640105921083600592000073293702609011158168351059262636008780000888343023090111965917810592000360061700007267330280901115715428)))
 (.node 2 (.node 1 (.leaf 8807444360061308707911550181411116026010075604443600682025377184502202011164082460464544436006640000791443023020111611804004328444360097100006901410240201115727856085404443600664000080463102914011198207030355444436008710000856433028090111593713003554444360070400008871430231001115961088035424443601075000088764102402011153761690738444436006230000741745022020111960020610592000101068200007626525190801115794922105920783600643000076874502209011160326061059228636005490000886852519140111571911210592286360055800008710450221401119491293081704443600656000077645751714011190186571059211236006560000756360016090111577323210592000360047700007660450220811119288480)
 (.leaf 10592108360059200007388370260901116031209105921083600689000074203702609011159634961059200036007140000847731029091111651782310592000360087100005552330280801115862664083484443600621000059403502709011160427481059216236002830000648341024101111952964310592000360064300007559350271011118959234105920003600643000070803502707111156108081059200036007990138826347521071111553598910592444360025700008882500200711119482262072124443600634200878204502212011158551050960444436006010000632733028020111603985303554444360089100008406310291401115936000035544443600898000086533702609011162124310441544436010620000892643023020111604828507305444360024700006903475210201116055281))
 (.node 1 (.leaf 10592000360063400006884450220801116009924105924443600585000082164502214011159223321059244436007140000760245022140111929122010592062360048600007244550180901115828999105920003600766000077895751709011153995891059200036004670000899550020081111575710010592108360051700007788430230901115710427105925923600341000089164502209111158221591059200036007140000844931029091111592994410592000360063900006885390251001115413248076134443600686000052223702614011160706530355444436008560000832231029140111630584703554444360089800008727370260901115971102035544443600467000071303702602011195528170493744436002150000649737026141111574630905790444360061700007354525190201119560451)
 (.leaf 10592201360061700007685500200201116010914074034443600623000074694302302011160009460916644436004130136785939025020111591112808170444360044200006737450220801115960509105920003600384000077954752108011159378681059210436004670000838547521081111591717010592104360046700008365475210811119384477105920003600100000090105501808011156262741059200036004670000779545022080111946637410592108360046700007820450220901115857101105920003600719000064113102908011195351721059244436003220000885150020071111979331503554444360094100008796390250901115934830035544443600623000079013702610011163055850355444436004670000609039025020111619022005508444360102005678981430230201116124276))))
 (.node 4 (.node 2 (.node 1 (.leaf 7649444360051700008993300000201115571160105923353600709000076024502202011155511521059200236006980000765750020140111550074610592215360034900008216450221401118949779096984443600486000088766251514011197523410569744436006430000585743023080111911852610592000360046700007101450220801115699729105920003600060000090225751708011151538051059210836004670000782045022090111956085010592000360076600006306310290901119350706105920003600682000079383902510011156673301059244436002320000894445022071111596370706415444360077111168198475211401116117249000004443600505000084414102402011167177540960444436003660000468639025140111566558609604444360023200003466390250201115476314)
 (.leaf 3554444360077100008711370260901116119901098234443600605000076584752114011160063510789644436008360000749545022140111605407410592444360056717889028500201411115382633105924443600771000090345501814111158420661021644436007040000904865014020111551468810592298360043100007574450220801115395361105920283600442066675705002008011192897571059205836004670000839750020080111929520010592000360034100008365525190801116001108105921083600467000069974502209011161158961059259236008350000863339025090111616388308276444360074200006884450221011115746579105920003600585000048943902502011193291311059200036004000000846243023071111581015510592444360000000009012450221611115852158))
 (.node 1 (.leaf 4803444360087200008646390250201116623329035544443600505000085233702610011157078310000046636000570000673745022020111975249306563444360066900008655350270201116416812069684443600669000076864752102011200788060681444436008370000741745022140111584779206461444360084200008666390250201115933551091054443600477000085114302302011163858071059226136004670000699745022080111597593610592120360062303547321430230801119464764105920583600467000083145251908011156875701059200036001980000834857517080111587522710592126360046700008481525190801115841922105921083600467000076584752109011157262481059210836004670000699745022090111959999510592108360048600006884450220901115848465)
 (.leaf 10592626360083700008840390251011116115785105920003600341000061154102408011159710071059200036006860000809845022101111559923610592444360023200009002500200711116084489049784443600835000086834102402011163591600355444436004770000657941024020111621866507608444360055800008837430230201115969408066104443600307000088964302302011162723660758644436004670000662427031020111575192610592444360074200007972500201401115761930093824443600322184190025751714011153204080739744436006860000802970012020111594025207772444360022100009000450220201116880388105922973600100000072255251908011154233551059212436000280000881360016080111537032110592102360046700007008525190801115987555)))
 (.node 2 (.node 1 (.leaf 10592252360050500007881430230801115815309105921083600828000086793902509011196027901059262636006690000858539025101111589461908406444360050500004827450221011119392432105924443600232000090285002007111161950270653844436007142421879941024120111619727904234444360028300006813450220201116318854061424443600824035386204102414011171153910425544436008880000788541024020111610281104818444360068200007681410240201116673665043254443600872000081234102402011159969100601044436004860000842837026020111663040503554444360046700008514370261001119479610000004443600467000057763102902011158343760693044436004670000606237026020111613269906930444360046700007101450220201116433801)
 (.leaf 10592444360062100007400410240201115856876071264443600357000069923302802011160495390563844436004670000655725032020111569892007076444360065601317122350270201116054225105924443600567154689115501814011162860311059210836004670000673745022080111600873010592000360065600005357410241011115956816105920003600413000053263902510111157267180501944436006822444565341024020111592775803554444360061300008725390250901116068651035544443600517000084283702610011157734300743744436005280000642629030020111569259406802444360018600008781450220201115935216069594443600549237690246751302011161053040782744436004671476766045022020111578372509604444360058500008350525190801116223166))
 (.node 1 (.leaf 10592000360046700007023310290201115777276105920003600467000076193102908011159078280992944436007140000863339025071111595093609929444360006400008596430230711119395332105920003600517000062704502207111193633750550644436007040760884641024020111693383103554444360054000008613370261001116042272056974443600226000061113502702011161976690879344436005280000889847521100111595374902770444360070900007302390250211116058876068144443600477000080974502202011159583511059212436000280000890960016020111537058404720444360046700007464310290801115971604105920003600467000060283102908011159496460934044436007770000535647521071111581982210592444360035700008441410241011115552644)
 (.leaf 10592444360079900008885450220711119385195105923023600799000088994502207111196067390454444436006820000821943023020111631067502442444360089600008388410240201116778230033594443600933000086984302302011169296770512544436003072048761345022140111593014603554444360056700008613370260901116264116035544443600477000087113702602011164645410743744436005280000699233028020111974598406535444360062300007264430230201119316036065354443600450000072063902502011157295471059241036004670000836445022020111585387008925444360046700007574450220201119705681047204443600477000087253902502011157582850472044436004770000814839025020111594832410592000360046707585611310290801115743309))))))
 (.node 16 (.node 8 (.node 4 (.node 2 (.node 1 (.leaf 9604444360044200007116450220901115811428035344443600682000071133902502011161387270301844436004310944499837026140111587528808793444360046700006872310290201115777907087934443600442000075754302310011159242950743744436005050000692131029020111968104910592444360046700006982310290201115648298047204443600623000090345501802011193000110472044436004670240759231029020111584172110592000360046700006930310290201119141167096044443600423000067725002009011195522831059244436002070000532639025101111967059305081444360061700008548430230201116640387057174443600907000089524302302011160092310305344436010710000866545022020111594389703554444360056700008486370260201116644256)
 (.leaf 3554444360048600008625370260201116336192000004443600486000070743502702011159371230000044436008580000719333028020111639047203554444360046700006596370260201119765535027704443600540000069453102902011158522710743744436004670000704133028020111570116605855444360088200008971430230201116484461105920001890467000575744502202011157874190472044436008490000902655018020111587088904720444360046700056982310290201115948724105920003600627000070904302310011157139530834844436000170000440845022101111580771510592444360027300008872450220711115965824105924443600157000086225501810111190789520499144436010220000897143023020111611541206940444360093510308712430231401116914610))
 (.node 1 (.leaf 3946444360068200007853390250201116039681053184443600656000076814102402011157083820359744436009180000604943023020111650762400697444360046700008577370260901116155432006974443600467000085853902502011198817510457544436000140000771845022020111940947200000444360079900007060330280201120160242035544443600467000068583502702011157999630960444436004420000678535027020111591620910592332360046700006921310290201119816375071634443600467000075744502202011163623151059207936004670000740143023020111590592504720444360087200009006450220201119614570047204443600486000090174502202011156611540472044436004670000700633028020111615815408348444360000800004744450220711119494731)
 (.leaf 10592444360028300004744450220711116035907105924443600558000062384302314111158017141059244436006890000895243023141111628838802062444360111728589006450220201121116054039464443600682000085853902502011195913780586144436005400000815243023020111646078804016444360085800006049430230201120298681006974443600477000088204302309011160457040140344436004860000888545022020111599999805783444360043100006975390250201116050379105920513600528000077424502202011159135771059232236004670000705931029020111913359910592323360046700006930310290201116131686067784443600144000089376251502011163382741059207936004770000763045022020111579776700000484360093400009037550180201116090603)))
 (.node 2 (.node 1 (.leaf 4720444360048600009017450220201119357350047204443600486000090476251502011189318980479144436006860000856841024020111670791401957444360105502378665450220201119942332006974443600486000088724502202011161299680069744436004670000867939025020111993448100420444360047700007729410240201115857013096044443600790000090064502202011163834590960444436005050000900147521020111622454608793444360046700006930310290201115589392105920513600477000071743502702011159087511059200036004770000752345022020111553100404720444360046700007249310290201116501852047204443600467000068723102902011159738100850744436005280000533845022101111593603410592444360047700005455430230711116014512)
 (.leaf 444444360098900008967450220201116253411052134443600790000086844302302011164906870521344436010000000883743023020111677167005533444360068200007113390250201116450480055334443600477000089785002002011160942970000058441409780000876345022140111945448300000444360057600008695390250201116581886006974443600486000083654752102011161881640244544436003660000741339025020111593956802445444360048600007769450220201119960588096044443600486000090014752102011163419010960444436004860000902347521020111662130509604444360047700007200370260201116002554075414443600467000068893102902011158904991059200036004670000650231029020111551175807087444360057600008967525190201115773886))
 (.node 1 (.leaf 10592000360059200006997450220201119750001105920003600558000076604502202011198865130472044436006210000900160016020111572471004720444360051700009000450220201115552977047204443600643000090174502202011152583420472044436004670000683231029020111937086509604444360061300006621430231401115985683033094443600576000066414502214011192219300330944436008790000713447521140111589951804419444360071431368896430230201116098394039544443600975000188524752102011157327930553344436007420000899550020020111985545200000444360059200008670370260201116198142000004443600505000079315002002011162334650879344436004670000690631029020111969827710592000360046700006808310290201119193003)
 (.leaf 10592332360047700006655330280201119335925062814443600853000089714302302011165490920382444436006390000903055018020111924869701403444360046700007440330280201119879269033094443600366000077184502214011152162361059244436002830000901245022101111573858605213444360062300008620410240201116719557052214443600682000075423902502011163213240000044436003410000848637026020111609685300000465360048600007795475210201119997275096044443600540000090234752102011164537390960444436004860000731135027020111579267607287444360048600007244350270201116097704105920003600549000075504502202011165571561059204836005920000757445022020111616138301403444360093300006796390250201116114534))))
 (.node 4 (.node 2 (.node 1 (.leaf 9604444360080300005888370261401119363394033094443600623000073955002014011160011921036944436003840000533845022141111939504010592444360028300009012450221411115782859043524443600601000069964102402011160007370369044436009820000877839025020111604357907564444360096200008820430231201116189307000005623600442000035894302302011197084090000044436004770000862835027020111610727102445444360048600007891475210201116000160084394443600486000072813502702011159036981059204836005920000752345022020111618230502445444360085600008965575170801119118656014034443600467000060943102902011157972310330944436001860000791047521141111828942504598444360055800008944450220201116238020)
 (.leaf 444360048600008744370260201116045376006974443600486000087273702602011199702820960444436006210000902347521020111647936805697444360048600008761390250201115603320097944443600517000090234752114011159252190794744436002570000902160016020111570901410592048360016400007732650140201116029644047204443600848000089646001608011157510480472044436004860000903960016020111533038904720444360048600009048675130201119039733047204443600486000090486751302011187753000472044436004860000904267513020111537234310592191291060100007226390250901115866399083834443600113000052514502210111162339940952844436003340000564845022101111957774010369444360028300008957450220711115869081))
 (.node 1 (.leaf 6162444360093200008977525190201117434386069734443600136000090466501402011165955050501844436006270000904562515020111598630005359444360046700009044700120201115987465045744443600639000042174302302011201611030074244436011410000900645022020111743143602881444360085800008803430230201116412231000004443600627000087443702602011194715660960444436006010000902347521020111605869106281444360062100008944450220201119120822082424443600528012689965251902011162489951059200036005170000785743023020111637048404720444360048600009005675130201118691604014034443600467000062663302802011162031761059207336008240126558635027020111628549306420444360063400005507370261411119219203)
 (.leaf 10592224450060100005083390251411115805796095284443600442000055304302310111160415781036944436002830000883645022101111591044304598444360065600008846410240201119721095056324443601051000090124502202011164917190618144436006340000878041024020111603319308054444360071400008976450220201116069023047854443600639000075423902502011166094460327344436010830000898645022020111692480000000475360006400007786410240201115778677000004443600486000087443702602011198064250000044436004860000892041024020111674277505697444360051700008896430230201119152253062814443600486000088144102402011159552170714844436005280000891243023020112010397110023444360068205588885450220911115583969)))
 (.node 2 (.node 1 (.leaf 1228444360059200008830625151401115862759047204443600486000090456751302011191395830140344436004670000593731029020111622214506420444360045000004192370261401115839597033094443600477075675234502214111154872230330944436006690000531943023141111538310810592444360018600008930475211411116193052067774443600848000089405751702011156635540483744436007140000722841024020111580126709708444360070900076586500201611116021716000005623600486000086183502702011165265780000044436006010000892041024020111995719000000444360054000009023475210201116025892000004443600790000090174502202011159002230569744436006820000901245022020111584303007148444360048600007929475210201115810216)
 (.leaf 7148444360048600009013475210201115420481071484443600486000089944752102011158679800910244436006230128895750020090111543992410592444360054000007908410240201116109068068154443600477000079974302302011193682340140344436004670000644635027020111607142305632444360059200008976450220201116072556056324443600634000088464102402011158715240432244436007140000889041024020111587852302939444360095400006966450220201116026246000005623600486000088764102402011163326490000044436005580000902347521020111595937206281444360048600008604350270201115761369105921533600486000090064502202011154754411059217436004860000883645022020111910312910592000360047700008854430230901116050542))
 (.node 1 (.leaf 10592483296035711097421430230911115948790052734443600486000078574302302011160637710472044436004860000894967513020111876775010592073360066400008929500200801115876977105920733600477000076855002008111156277520876144436007040000605443023101111603226310592000360060500005811475211011119192474099684443600283000073224102410111198575060563244436006340000901245022140111600368905903444360066937177025390251401116636265049094443600669000082624102402011160592650128544436007660000492347521020111606406501285444360085300007853390250201116943918079414443600742000046013702608111198245460507544436004860000901745022020111600692800000444360048600009023475210201115734700)
 (.leaf 10592000360002100098398525190901116007809099804443600639000077155002009111158917750978544436004670000791155018140111576916304720444360014400008667625151401119527212105924443600207000090136501402011153588831059207336003340000782050020080111595112909968444360036600005614430231011116184698105924443600283000090255251914011164542580123244436008420000426947521020111590610703224444360086500008020450220201116399300000004443600486000090234752102011191982180000044436004860000901745022020111925664305697444360081900008899450220201120145901056974443600486000089774752102011159976971059200036004770000717435027020111600464010592000360048600008780475210901115717047)))))
 (.node 8 (.node 4 (.node 2 (.node 1 (.leaf 10592000112002400007818625150911119651608105924443600486086089826751302011151275841059207336005050000788433028080111577758410592073360050500006854500200901115804758032244443600836000080804302302011161990551006544436001360761894155018071111611914400000444360051700009017450220201121453209000006224580486000088403902502011161106430569744436004860000901347521020111950035410592000360054000008800475210211115310612105924953600682000054773702609111158529040956144436006170761894155018091111578087707337444360014400009000625150211115504836105924443600505000089926251502011149597091059244436004860011784667513020111541392408462444360051700005214500200911115686470)
 (.leaf 9892444360069800007245390251401115955015000004443601141000090174502202011164380410000044436011410000901245022020111644517300469444360114100009012450220201117744041056784443600766000082523702602011166033200462244436003840000514543023020111553527400000475360062100005713330280211115512244004204443600486000086043502702011157695780000044436004860000901347521020111962953805697444360060100008958475210201116485778105921443600467000069303102902011157545181059262636004000000852337026080111947613210392444360006022659022575171001115995863097854443600505000074133902508011201109241059244436001980000765060016080111575856610592189360051700008953600160201115317039))
 (.node 1 (.leaf 10592512145057600005941410240911115786198034524443600849000052214502202011162226290000056236005920000722335027020111919490405125444360048600008670370260201115637062002384443600486000084913502702011158300040166044436004860000900147521020111949597509604444360046700007060330280201115748070096044443600467000069303102902011190259471059200036001570355780552519090111581586310055444360015700007842550181411115886283097854443600183000085576001608011154057251059244436001480000743462515080111544922610592073360051700006484475210901115957137082614443600621000054485002009111192963920975044436006642002870939025120111594015904622444360054000008555350270201120436537)
 (.leaf 8959444360043100008441410240711115683640000004443600486000087994102402011160197020395944436004860000884039025020111575521200000444360048600009013475210201115873637024454443600486000084114752102011165679650569744436004860000770441024020111581115710592000360041300008724550180901119047331105925820820682000054153702609111198793700843944436003070000591941024091111595296009878444360047700008019430230801115981096105924443600144000086375751708011157665721059240336004000000893047521141111596473305420444360054900008595350270201116623581047614443600148000060743502702011159456140370344436006270000620341024020111975866201301444360086508665755430230201116243176)))
 (.node 2 (.node 1 (.leaf 8795444360002500006203500200711115417042000004443600486000090134752102011160191040244544436005050000898747521020112034319402445444360048600008430475210201116548815096044443600467000068513102902011155778101059208036004000000825155018090111608465110592626062011300007714525190911115688077105925733600334001572284102409111158585870959044436004860000780741024080111597089210592444360014400008155625150801119390863086074443600517000055854752109011154602761059221236005170000527647521091111557093004244444360063436937983290301401116032371088724443600198000083344752116111156290710681544436004860000864235027020111570666204553444360048600008968475210201115618084)
 (.leaf 444360048600009007475210201116237972061904443600060000082325501802011163606350000050136000110000811455018020111945669609604444360046700006673310290201116177314105924443600467000067463102902011160402071059228136000280000762750020020111616887310592444360017000007791550180901115778813105921593600021000083246251509011193101351059260336001130000773952519091111581433510592444360068200005573410240911115930302105924443600293000068415251908011154798630472044436005050000896165014080111545947106600444360034901378553390250201116515830048694443600384390684083902512011160260670823944436009211039654245022120111556998602858444360101600008971430230201120759173))
 (.node 1 (.leaf 5844444360055800008763410240201116774982032344443600486000086553502702011160269590244544436004860000902347521020111621648810592281360060500007795450220201115905541105920803600334000080945251909011157024821059262636001830000807257517090111525410410592032360050500005524390250911115802704098914443600617013869753902514111161493240935844436003070000554652519081111594402110592444360060500007781500200801118952809105924443600144000084346251508011155555441059218936004770000638852519080111562803410592444360046700005769350270801115694517105920733600528000079844752108011157682160860744436004310000838841024090111541854110592212360055800006010450220911115840567)
 (.leaf 9486444360000000007854350270801115688495038254443601141000090174502208011162206090413444436005850000856739025020111631968507521444360001600002742450221001115215212041444443600027000085576001609111190267681009944436004860000728439025140111608100709643444360028300005777525190811115874187105924443600477000063654102408011155708081059207336005490000775447521080111895915208607444360061700185078450220901119299610103384443600505000077145251909111158649130592744436005920000865535027140111827982700000475360000000007303450221001118709313041594443600517000089264302302011160863110439744436006820000743539025020111616581603023444360048600007420370260201120246502))))
 (.node 4 (.node 2 (.node 1 (.leaf 6190444360046700007362330280201115826633024454443600100000082135002002011158196831059229636006230000771845022020111947345610592296360060500007400410240201115845480105921553600221000081755501809011153928901059226836004500000623445022091111593583404144444360068200006053410240911115880297087464443600400000071344752108111157594131059244436006340000813750020080111593391810592444360014400008984625150801115489147061904443600719000070574502208011195899381059205236006170000847652519080111618322602841444360100100008864410240211115947895030974443600742000084583902502011172346770000056236000160000375743023020111576757400000444360062300007661350270201117619493)
 (.leaf 3234444360051700008853450220201115938365056974443600486000071603502702011162735400244544436004770000710635027020111607498510592203360041300006399450220911119377188105921893600198000085276251508011153268381059218936003490000848262515080111553398610592189360046700008303625150801115316049105920733600601000072534752108011157326341059260436008390000746943023081111584972110592000360010000007317390250801115159307102184443600549000076555501809111158926840403444436004860000869539025020112017882704034444360051700008820430230201116067859054544443600505000086993702602011158948040498544436007420000879941024020111972274110592000360066900007627500200901116009135))
 (.node 1 (.leaf 3229444360034100008387550180901115564214105920003600134000081536001609011157283131059220336005280000567939025091111591085410592000360013400008831550180911119361355091384443600549000067554752108011157312611059244436002730000759455018080111609918610592189360047700006903475210801119060757105920733600477000060115002008011157668341059208136000550000870852519081111580699710592000360057600007253475210801119372257095894443600307000085884752109011158435590783344436001830000446239025161111550156600000444360036600005416370260201119478949058364443600613000086793902502011158591200749544436000250000834462515020111602508608792444360064300008882500200901115978617)
 (.leaf 10592203360034100008728410240911115830054105926260050307000057844102409111159280410715244436006820000541537026091111932274910592073360043100006946370260801115696076105920003600257000060494302308111158898270966944436004670000883252519090111569064008963444360013600005923525191611114884986092344443600621000087804102402011197857720355444436006820000861939025020111599923208012444360054000007885410240201116108741087924443600669000089955002002011151727221059223336004670000865652519090111558745408387444360082400008223390251011115486002083244443600567000065724752108011195652520874644436004420000604755018080111937186608746444360046702595884475210801115854214)))
 (.node 2 (.node 1 (.leaf 8746444360048600008334475210801115926806105921893600176014580786251508011154325131059207336004670000654337026080111580090510592073360034900008237450220801115875014000004443600000000080204502210011189299190923444436006340000851437026020112006787503554444360061700008666390250201115839007102064443600442000076555501802011156016071059244436003490000818045022020111571180904397444360054000008554330281001115854092043974443600517000072443502709011162214331059240536003220000717141024090111580166810592237360033400008641500200901115539593105920003600682000048943702609111154013370751044436007660000826241024081111513251210592038360061701468814525190801119327573)
 (.leaf 10592038360083600009036625151001118813255105920383600477000070285002008011156218810966944436004230000819241024080111592044208338444360059234114710310291611115388051061904443600273000086504102402011155006790879244436006560000896847521020111518697508792444360063400008944450220201115657791105925373600116000085555002009011153785441059202436003340000542141024091111611595710592024360064300005606390250901115942504105474443600682000089295002014011159388981059203836001440000798562515080111891760210592038360047700006864500200801118987876105924443600686000077044102409011158814531059244436008030000736737026090111603825210592444360084200007244350270901117785265))
 (.node 1 (.leaf 10592444360034100007630450220901116222699105924443600192000084135002009011161833821059244436005920000831043023080111573646010592444360035700009021550180801116002743000004443600000000042024502202011193229931059239936004670000748835027090111580939608792444360068200008988500200201118888747087924443600639000090064502202011159302161059208336001980000740143023090111613775910592398360022600007285410240901115929818105924443600033000053814302309111158908241059244436006822502899652519140111660220606761444360040000003952450220811119304509087464443600157000078796001608011153324451059202536004673564603235027080111578240210497444360011300007235450220901115838038)
 (.leaf 7934444360030702644847475211611115261895000004443600072000054564302310011149932540355444436006270000892041024020111948399603554444360057600008905410240901115883584061904443600467000084863702602011190346220619044436004670000854637026090111573446708438444360046700008591370260201115561718083604443600585000072854102414011158857780795044436001920000519647521091111518320210592038360015700008374625150801114770912105920813600467000072364502208011194566151059208136001040000608947521091111569573410592000360035700006640390251411119144694101754443600467000073054102408011192461020794844436007190000880145022090111626798710408444360032200008967525190801115918779))))))))
 (.node 64 (.node 32 (.node 16 (.node 8 (.node 4 (.node 2 (.node 1 (.leaf 8858444360040002658412500201611115829005000004443600192002846514302310111150799840923444436000000000497445022100111584011407439444360063400008840390250901115839214102064443600605000088144102409011158067230681544436004670000851437026020111903989110592399360046700007851370260901119034781105921003600467000073793902509011193272121059203936000210000889260016090111568285310592039360006900008868525190901115276811095384443600664000072813502702011157236101059239736004670000619447521080111572235110592000360051700006167450220801115501839105920003600207000077455751708011154338031059201236002320000848262515080111550224410592038360019800008303625150801114990007)
 (.leaf 10592038360048600008453675130801115688634105920813600709000077304502208011158108741059200036002830000668537026090111551048409669444360046700007171410240801116051939105924443600008000078695751709111160001860000044436003660000396641024100111911036600000444360004800008432525190201119811874074394443600540000089204102409011195548631059200036004770000697743023090111595825310592000360060100005326390250911119731700086084443600232000053564752107111152791521059214036001830000815562515080111637727610592081360074200008713625150801119041748105920813600413000065925002008011157098711059208136003410000809845022081111597096610427444360003300007438475210901115799427))
 (.node 1 (.leaf 4303444360076600007714525190201116222054105924443600006000082305751709111158940581059200036001340000794960016090111561678310592444360052800009002500200801115623142105924443600592000089885251908011157009310911044436000090000502950020161111555523908768444360006900004984450221611116012111074394443600540000088904102409011163375071020644436005760000788143023020111896764510592392360041300007171410240901115995936087924443600467000075223702609011192914541059210036005490000782437026090111598424610592199360042300006699290300901119692929105920853600057000088945501809011154189841059214036002570000832065014081111600979610592081360050500004984450220901115265957)
 (.leaf 10592081360046700006365410240801115461188098164443600349000070004102408111152255731059244436000050000773657517090111950191408048444360048600007465410240901116097840105924443600431000079433902507111162251091059200036001920000839852519090111544343510592444360062100009018475210901115308221102544443600621000089965251908111157386890820044436009280000809845022101111541821100000444360000000007067500200201115947034102064443600592000079474502202011158286371020644436005760000796945022020111586232110592008360061300007594410240201116060350105924823600790000075264302309011158022701059248236007090000746541024090111910839010592444360020700008944450220901115749244)))
 (.node 2 (.node 1 (.leaf 10592444360036600008852475210901119020283105924133600467000077213702612011156932781059210036005050000815641024090111593633110592092360002500007147430230901116029793105923453600322000060364302309011190985680857944436000210000442147521071111520650110592000360017600007879600160901115934214105920123600592000083746251509011158923721059214036001640000852762515090111558566310592038360046700008688575170811119513458041804443600819000064574752102011157875501059200008401440000825155018090111595345610592000360003300009030550180911119375242105920003600186000090145002009111161261191059200036000110000668357517091111576539710592444360001100006610600160911119213397)
 (.leaf 10592444360014400007928625150911120015780105924443600771000090234752109011157682570863444436000320000550357517161111621157707687444360000600003304450221611115356497078164443600134000034894502207111148512660743944436008370000849135027020111558293406814444360051700007443410240901119413699105923513600020000081536001609011155748281059210036004000000744443023090111920195810592049360040000007226390250901119122858105923453600467000074984302309011163220921059200036003840000552439025080111891331610592140360057600008587650140911114901298105920383600442000087896501409011192008190807544436002930000565755018091111575865610313444360017600007025390250901116040977))
 (.node 1 (.leaf 8873444360048600007742450220901116311890088734443600486000070574502209011197476701059244436000250000773460016071111581240210592000124010000007627500200911119664430105924443600842000090285002009011153625220000044436000000000554050020020111589849600000444360000000007115475210201119041738068144443600807000077144302309011193984211059209036000322179732241024090111895563810592311360042303817226390250901119367025090964443600006000041094502207111158403561059239736003070000859557517091111509718209505444360022600008878575170911115771278105920003600634000085876501409111157876441059214036007090000849565014091111532256310592038360077700008984625150911115695249)
 (.leaf 10592081360030700004577450220911119228337080754443600226000078855002009111155334630984244436004670000749545022080111960881210379444360034100007910475210901115742685105924443600064000072075002009011151866821059244436000000000771157517071111633906610592021360002200007739525190911115038723105924443600033000067055751709111192173451059244436004000000795155018090111612680810592057360018600008160450220911115979991080354443600528038246624502216111154499050818244436000000000348945022161111904127807439444360085800008529330280201117110369068144443600807000077384302308011156678300681444436008070000897143023020111938556510592409360006000007648550180901115371932))))
 (.node 4 (.node 2 (.node 1 (.leaf 10592351360002100008229600160901116341941105923043600450000064453902508111159055750950544436004670000893860016091111934710709505444360045000008963625150911115808252105921403600858000089226501409111151651021059244436002570000754741024080112040117410484444360052800008995500200901116483979088734443600450000067374502209011194281481059244436001040000658650020091111617430610592021360061300006360430231011114897754105924443600891000090234752109011192135640743944436008420000852835027090111968109306814444360080700008912430230801115511064105924443600357000079754102409011151021801059221036004670000694531029090111595568310592067360038400006673310290901116111230)
 (.leaf 10592311360029305997359390250901115541340105921693600467049169383702609011156914951046944436004860274893145022140111535873610592140360087000008984625150911115689127105926023600836000082883102909111160411090807544436002470000433560016091111905076909711444360048600008383450220901116128022070184443600828000068344752114011161110811059244436003340000782045022091111536665110592040360015700007844525190711116154662105920213600442000076044302310111149776991059244436000600000903055018071111941031410592444360055800008905410241011115326806105920573600601000076575002009111152747430743944436001571723881845022090111593949810206444360070400009000450220801116084560))
 (.node 1 (.leaf 10592444360080700008854430230901119209495105922903600357000067853502709011159988510752844436005050000704337026090111524525210592444360019802759020525190901116179677105920813600540000089386001609111190980371059208136004500000772455018091111593291910592081360001800004545390250911119210585105920813600293000049234752109111157909750807544436003070000395865014090111580670410203444360056700368529330280801116833330095204443600366000074694302309011162069310960444436006230000629845022090111622808410592000360017600007715500200711115529508105924443600232000081106501407111155713841059244436005850000755939025101111924153110592444360002500006478575170911115147621)
 (.leaf 7439444360006000003164450220711114777371074394443600144000051144302307111190296900979644436000240000813157517041111931358010592444360002100007216525190901114920250105923373600467000087644302309011188128531059243136004670000853437026090111872337010592337360029300006975390250901115564955105922843600627000062663302809011193819020950544436005920000901770012071111539808409505444360033400008831550180911115049480105920813600064003754773702609111156693080421144436005920000642645022090111614612910592000360045000009006650140711115792168105921293600019000065305751707111150810671059244436004670000645243023071111470029910592444360010400008076600160711115239459)))
 (.node 2 (.node 1 (.leaf 10592444360007200008091600160711116376121105924443600273000089435002007111151278401059244436008960000900147521091111535006010592000473006900006586525190911118997049105924443600621000059414102409111193990910792344436005170000449043023161111498323208200444360096200006173450220711116039519097964443600669000089444752108011154074140681444436008070000897143023090111917763710592444360010400007067500200901115819254105923373600467000088704752109011147864411059208741705050388881845022090111535565908401444360017600005363625151611115821754095054443600334000088795501809111153236471059244436003490000866762515091111478508110592602360047700009002575170911115846522)
 (.leaf 10592444360054900009020625150911116217102105920003600334000088785751709111143133171059208136005280809538143023091111560461208670444360046700005653410240801115118042086704443600540000083254102408011161148230827944436005850000628850020090111637082804510444360080700007740500200201115955298105920003600183000078915501807111149156771059244436000280000809160016071111512525010592444360066400007583390251011118881328105924443600714000073523502710111147384821059200021000550000627045022071111503345108422444360061301627376475210801116879894079354443600341000043234302316111152017780679344436004420389283545022071111502961709796444360083700008985600160411119270136))
 (.node 1 (.leaf 9796444360076600008646390250811115050660105923373600400049788815251909011143150471059233736004670000899652519090111460867205625444360046700008665450220901119343970105922423600341224572854102409011166949001059228436005582017615837026090111546677010592000004000400006834475210711114881830105924443600366000088465751709111151612941059200007003490000902155018091111913736810592285360020700004780500200911114618993049924443600803000052214502202011164850501059244436005920000904770012071111555143110592444360059200009052700120711116118043105924443600682000074413702610111146969481059244436000640000904260016091111498344510592171360063400006327500200811115289799)
 (.leaf 10592541360083700009021600160411119390390045614443600803000076874502209011189596070600844436000250000888152519090111521845410592246360061704997322410240901116172314105922463600682132466733102909011194597231059224636004863869700035027090111963953210592284360060118566629350270901119459347105922843600517049968293702609011161558971059228436005850000611135027090111959091709430444360028300004764475210711115975379105924443600467000087576001609111147042421059244436003840000903157517091111936062610592444360017000008013625150711115080183105924443600017000066325751707111159179901059244436005580000818470012071111588170410592444360065600008699370261011114890841)))))
 (.node 8 (.node 4 (.node 2 (.node 1 (.leaf 10206444360062700007028500200411119156680032424443600837000090396001604111192227051059254136007930000900045022080111523469110592164352051711737190475210901119276014105924443600148000086834102409011153319601059231036000280000892950020090111844764310592337360044203938870475211401115717341097234443600247000063516251516111151680781059200036006170000638852519071111469592910592444360033400008831550180711114782001105924443600540000090476251509111158602161059200036003070000474837026080111521533801888444360058500006510450220901115343533105924443600341071390035251907111157458471059244436005170000904170012071111578979110592444360059200008184700120711116354917)
 (.leaf 10592444360024700008012650140711116183650105924443600714000073523502710111160135071059244436006980000753939025101111890524910592444360062700008653370260711115760640105924443600517000089584752109111191750400895744436006390281737647521090111589506409036444360068600005338450221611115508882067934443600442000027734302307111159293670324244436006170000896847521041111503341810592012360030700008832525190711114903842105924443600334000088315501807111147326391059241636002930000523252519091111580507408685444360025700004305550180911118833799084794443600293000046305251909111190975510906644436001570000876345022080111582415909101444360023200008622550180811115890642))
 (.node 1 (.leaf 10592444360058500008977525190711115913029105924443600585000066155251907111158274831059244436000640000665957517071111498569510592444360001300006632575170711116166727105924443600020000080905751707111160620301059244436007140000861835027101111573821110592444360079000008577370260711115287854084604443600183000084384502207111159027360324244436007990000900957517041111526190410592239360042308207148430230901116038659105923443600027000089285251909011182646481059244436004420043699037026090111487515410592444360063901687635410240901115435535096384443600505000068653302809011147106740941944436007140000535647521071111862813310592444360033400008671550180711114685338)
 (.leaf 10592444360033400009037550180911115506870105924443600431000066125501809111159534961059241636007041006524139025091111893279308863444360061700005794550180911118994659061914443600605000044424502209011193459070573044436007140000673745022020111566957510592444360071400008995500200711115616335105924443600349000080305251907111193884861059244436001040000805355018071111636844910592444360005500008014575170711115325844105924443600032000066325751707111159135871059244436000220000665957517071111485630710592444360011600006478575170711116116768067934443600017000055654502207111145217090329644436000150000544045022021111592779810592444360083500008938600160411115580524)))
 (.node 2 (.node 1 (.leaf 10592364360046702856850290300901114471752105920003600104118289646001614011183775281059233736004770000709937026140111620681909173444360045000004597475210711118661717105924443600334000089115501807111152342661059244436003340000902655018091111501360710592444360033400009021550180911114883684105924583600714050754774502209111186946910886344436006050000575543023091111900755606191444360070400004283450220711115310734105924443600558000090095251907111158551871059244436000320000674857517071111917157210592444360002800007931575170711115135782105920003600450000089944752107111158891941059217136006860000869539025071111920804708548444360014408255091575171611114327847)
 (.leaf 10592444360083513438931450220411119602176105924443600824000088253902504011156111761059221134406890000678535027080111511510710592364360046709196884290301401114287527105920003600247134389736251510011185963341059244436004671637762233028140111611817409173444360069800004681475210711114499242105920943600549000071665251907111189895081059209436005170000749052519071111589131910592444360033400007433550180711114440487088634443600157000088145251909111147433131033544436002260000863757517090111647678910592444360059200009014500200711116133760105920003600055000065855501807111157647491059244436003660000803052519071111527179410592444360002800009039600160711116150238))
 (.node 1 (.leaf 10592444360025700008032550180711114625390105924443600450000089944752107111185985571059244436007140000864235027101111433137010592000360071400008604350271011118607101105923083600819000079573702609111193259451059244436005760000896745022041111908229310592444360083700009027575170411115070667105924443600682000070904302308011191294791059237136004500724866841024140111450108010592152360056734188294525191401115431093105923693600682272666423702609011149400641059241636002830401531943023091111432737308793444360060500006298450220901119531755105920003600322000062054752107111149335101059200036005760000895745022071111469340210592444360005700007974575170711116192638)
 (.leaf 10592444360005500009022575170711119361414105924443600055000062995501807111145225301059244436000110000797457517071111885599310592444360068200008699370260711118658255087394443600623000049844502216111187285511059244436008370000902760016041111519340010592444360035700007057450220901114680155105920003600467000088364502210011142279721059237136005670924835833028140111957679410592371360019802897570500201401114648147105923373600664051283076501414011197123391059204136006560000609850020161111927986310592000360057602895464525190711116119358105920003600528150158644502209111188288100886344436006820512488152519071111602806208863444360050500008432525190911118822191))))
 (.node 4 (.node 2 (.node 1 (.leaf 7267444360062300008040475210411116002180081944443600793000070294502207111145169661059200036005280000617147521071111474476810592444360051700008074700120711114870722105924443600247000078715501807111162866301059244436003840000797262515071111528744610592444360015700007911550180711115321129105921713600400000078935002007111159925350725144436003490000540845022161111535773407408444360017600004904450220711114384976060154443600528000029713302807111157114701059244436008070000870939025040111486110910592444360083200007093350270901115546212105920003600467000087124302310011139652261059209436003340000877955018071111847856510592444360033400008866550180711114645248)
 (.leaf 10592444360035700008937625150911115954336105920003600183029050915751709111157438390886344436006860000530550020091111457141210592444360044200008967525190711114534030105920003600307000078935002007111147393001059200036006340000757050020071111456590910592444360002100007974575170711114880452105924443600016000077895751707111149224021059244436000200000765257517071111921329410592444360034100009017450220711114607673105920003600528000090064502207111157103661059200036004420000900147521071111875569610592444360058500008780410240411115071722105924443600807000088403902508011192416391059244436007140000689143023080111401342306814444360046715808321330281201114977426))
 (.node 1 (.leaf 6814444360066900007635450221401120007070042414443600682062677304502202011164834401033644436002320000890567513161111582525910592454360071400006755475210711114825452105920943600334000088315501807111160854711059209436003340000891155018071111594786910592000360033411107307550180911118995538105924583600349000057415501810111157287370862844436001440000883062515090111873048010592000360061700007740500200711118877871105924443600021000090275751707111154858281059244436000200000791057517071111947819410592444360021500007765550180711119320970105924443600477000090396501407111186119101059244436006010000905170012071111829638110592444360062700009041575170711115727341)
 (.leaf 10592000360074200008628350270711114556370105923083600719000075705002008111161118381059230836006980000883743023081111600809203693444360083605165949430230201115452853094544443600232000088066751316111153861671059242736007140000666947521071111930749810592094360033400008927550180711116009337105920943600334000089415501807111160072531059209436003340000889455018071111607882110592626360061700005338450220911118560687087594443600613000083545002004111160898940843644436006010000774355018091111595914710592000260066900007030430230401115875658105924443600021000079105751707111159553281059244436000550000805355018071111589206810592444360002200008090575170711115793758)))
 (.node 2 (.node 1 (.leaf 10592444360051700008126700120711116107658105924443600183000079115501807111150170321059244436001160000902450020071111387588708233444360002000003952450221611115012545070444443600334000045774502216011156069231059244436006390000891645022041111466496610592444360083500008976450220411114648892088274443600232000080266751316111157780491059209436003340000895555018071111628481510592094360033400008911550180711114900896105920003600686000053055002007111185191610810244436006690000413950020090111518369510592000360054000007873500200711114142886105924443600021000080545751707111159969791059244436000330000786957517071111460040908400444360001300004577450221611113640930)
 (.leaf 10592000360018600003624390250711118675455105920003600837000090216001604111150731310415744436009340000774737026020111910481708492444360023200005431675131611115218066105920943600334000089115501807111146239271059209436003340000887955018071111435703410592141360048605204630525191011115969306076244443600621000038764502202111150222991059244436005490000793252519071111431524310592000360023200006508500200711113854771105924443600357000079725002007111159202151059244436006560000797147521071111889669510592444360013400006197575170711118923126105924443600592000090527001207111186322061059200036002470000900747521071111421104310592444360019200009024500200711118784654))
 (.node 1 (.leaf 10592000360046700008931450220711118941850105920003600669000089415501808111164874081059230836007190000833829030081111944921709376444360044200006234450220811114887503091804443600592185089115501808011162152030814344436001040000457745022161111403894810592000360058500008683410240401115990116105920003600623000089785002004111150392411059244436006860000816045022090111598515704157444360093005227903390250201114915312086584443600226000051606501416111150026020714544436002830000527647521090111477307110592444360007200009016575170711115136497105924443600027000079505751707111196185401059244436003410000802950020071111455966510592444360006900008013550180711114134063)
 (.leaf 10592000360022100009002500200711119008524079944443600032000042574502216111154982230619044436006170525605627031140112037493101403444360084437046862430230201114656480105920003600714000065724752107111160339631059200036007140413657247521161111943223710592599360033400008622550180711115998517105922163600157000061075751712111182723290913244436005400741526127031121111419265108793444360062100004577450220811114765284105926263600226000066345251907111157911061059244436002210000672150020071111865972910592444360002100008075575170711115772614105924443600104000079726251507111163741481059244436000210000653057517071111496181410592444360002100006323575170711119168552))))))
 (.node 16 (.node 8 (.node 4 (.node 2 (.node 1 (.leaf 10592444360019200006357550180711114239073105924443600664000090016001607111148832871059244436006860000901745022161111657825910592000360022100009003550180711114827972082364443600148000040195751707111157612071059223236005920000582837026140111601917510592000360083611389042600160411115986057105924443600704018385684102409011189251120858544436002210000495262515161111514108710592094360033400008532550180711116254268105922163600283005559146001612111140759220714544436006560000330445022090111551079710592000360036600006533525190711114002119105924443600232000066825251907111186418451059244436001040000661255018071111581104610592444360005500007932550180711118645780)
 (.leaf 10592444360002100008014575170711118846681105924443600136000078116251507111160270801059244436001760000639057517071111592735310592000360056700008905410240711115655585105920003600207000089685002007111157360960842044436002320000498445022071111552141710592000360000000002516450221611113325027105920000960221000043676001616111159632531059200036006340417901847521041111600222205697444360054000006944330280801115353457086594443600221000053896251516111161545601059209436007140000666947521071111409676409132444360054000005285330281011115920156074714443600349000086046001609011150247761059244436001640000676255018071111391439010592444360034900006700500200711113775604))
 (.node 1 (.leaf 10592444360057600008030675130711114734714105924443600771000090134752107111145336731059200036002210000902655018071111599738410592000360042300008995500200711119161523105920003600824000085913702608111160382740949144436007043742872647521081111935775510592000360082801858993600161001116125350105920003600837000090156001610011160425051059200036008320000891243023100111591682609235444360079300008494330281001118915461105924443600634000085393502710011157010851059244436005671474577631029090111508028005697444360054003037116410240201119698506105922163600366139870754752110111138880361018144436006130419499741024100111467093110592294360068200004371370260901115960024)
 (.leaf 10592444360005500007889575170711116099247105924443600157000066345251907111157456811059244436001360000674755018071111388331010592444360003200008014575170711114370515105924443600341000081496751307111190546801059244436005920000807470012071111417334710592444360042300008054650140711114300292105924443600771000090134752107111145017771059244436006230000904260016071111617271910592000360041300009033525190711116142699105920003600341000090245002007111161017571059202008700110645365645022071111392861510592000360082800008518330281001115888314105920003600828000084773102910011185555611059200036007710000846135027100111892068904918444360054905326948410240201114998934)))
 (.node 2 (.node 1 (.leaf 10592216360034900007533650140711114138349101814443600540000034063702610111151186060609744436004130000841860016020111587113410592444360019800006586525190711113673256105924443600719000090295251907111160465541059211636004230000880047521081111439242606773444360084800008280450221401115889769105920843600164000048305751716111154479321059210136001440000762157517071111587118707725444360057600006224600160711115726414080774443600585000084613502710111157440150619144436006340000632129030120111633384410592094360071400005196475210711115551597105920003600144000054163702610011145276331026644436006130000889162515121111599871610592444360015700006586525190711115594389)
 (.leaf 10592444360017600006783550180711115947808105924443600113000067835501807111134821471059244436003490000902052519071111566545610592444360025700009033525190711114082161105921163600828000083423102907111144618061059211636006010000848637026071111603603708170444360066400007490525190801116637470105922403170664076239664102407111151762820864444436002070000485260016071111371624210592444360070400006750290301001115747898080474443600000000031394502207111136069651059221636006210000653255018071111590585410592444360000000002107350270711119080585068384443600824309267606001614011170363481059244436007140000902552519071111604105810592444360076600009007475210711119279506))
 (.node 1 (.leaf 10592444360077100008987475210711118549423105920003600714000085953502707111145427610970144436008350000676170012101111813854310592000360082400008479330281001115703402105920003600714000080452703110011140793531059244436006210000638133028100111354777510592336360069809817002370261001115914873105925993600714000070104752107111156374270960444436005670000708257517071111358547606529444360080328304894390251401117025612105924443600170000067236251507111155271421051244436007140000902952519071111469696510592444360060500009051700121611113984051105924443600283000089785002007111188035031059262636003340000793150020071111418144110592250173065600004221290300711113418137)
 (.leaf 10592421360054901917000350270901113712077089384443600714000059804752107111184458890960444436007040000683447521071111583649206766444360066930595251450221401116650450105924443600623000065625501812111186238841059244436000640000665957517071111315728510592444360030700626700500200711113588452105924443600322000090085002007111142857801059244436007140000901745022071111594198810592444360071400009006450220711118648853105924443600714000090174502207111160092861059244436007140000899345022071111596620010512444360076600007685500200711113368955105920003600221000076265251907111161182341059200036007140000720735027101111617262810592000360062700008650410241211118987061))))
 (.node 4 (.node 2 (.node 1 (.leaf 5096444360060500007320475210201116855497096344443600226000082086001607111158061270970144436007420000635755018120111377839709824444360087000008379310291001112680102105924443600226000068523502710011137048641059234236007140000701047521071111588807010592342360071400006457475210711113533031105920003600384031163244752107111157656810890344436006820000331050020100112021368010592444360068900006508500201211113755380105924443600576000065114752107111143104701059244436007140000901245022071111591016610592444360071400009017450220711113889433105924443600643000067026251507111161552791059244436005050000899652519071111325795210592444360066900009039600160711114217070)
 (.leaf 10592444360064300009026550180711119077163072064443600634031226033302807111129909220023844436004670000454750020071111334606409677444360028300648543575171011113379046097014443600766089363915501812011140656680981344436008240000848845022100111353562210592103360070900007547410241001115775499105924443600144000066835501807111159783341059244436005670000665952519071111390399810592444360071400009017450220711113796961105924443600643000066835751707111187145071051244436006430000799152519071111601575410592444360071400008996525190711116011007064254443600585000078445251907111140433411059200036006890000765041024071111622256810592000360046700008851500201211116114347))
 (.node 1 (.leaf 4449444360083604317393475210201116208814100034443600576000088646001607111159098321059200036008370788657667513120111405149309813444360080300008416430231001113489147105924443600824000077303502710011184054741059220936006820000356750020071111591042010592330360071405454531475210711116623451071094443600664000058654502210111163802720669844436006820000507457517090111769220110592444360068200006722525191211118626679105924443600689000066345501812111138245451059211036007420314869450020081111402832907067444360064301964001310291011113576668000006144610540000041626001607111129976231059200036008370196893145022120111894716609115444360084500007835430231201112634748)
 (.leaf 8297444360036600007281600161211115734692105922023600714000066694752107111159436381059260136007140000719047521071111833952410592082360071400006954475210711115736925105920373600714000061944752107111161657451013344436006050794893762515120111580838010592444360071400008986450220711118831986105924443600714000089874752107111162701091059200036006980000704752519100111915423110592101360055804378388410240711113411208105920003600837006788994502212011142099040277244436007930067678535027100111339721010592000360070400676634525191211113494551105924443600682000067475501812111190565751039444436006640000670262515121111626384310144444360071401977310475211211114000243)))
 (.node 2 (.node 1 (.leaf 10592444360071400009025525190711116452984049634443600714000089934502207111166239270496344436007140000864235027071111384850304640444360068926228584550180201116096895002384443600656374940693102910111130989201030044436006231461879950020121111864893210592000360083700008931450221201113799447098244443600824121078582503212011185575200911544436008390000720243023100111864249610592444360061300003567500200711118602810105920003600601000043075002007111133287211059200002806272445635550020071111330766509425444360070900006385625151211115772951087854443600704000061356001608111159591361059244436007140000902552519071111431890110592626360062301986564500201211116068295)
 (.leaf 10592014360068205525923525191211118988914061384443600639420389115501802011159009241059228336006340000419331029101111336820610592101360025700008984625150711113804913098244443600824080880102503212011185288040923644436008460320788433028100111591915209979444360064300006417575171211115977807103614443600528000064506001608111162815841022144436000220000765060016081111562837204963444360071900009028500200711114131469105920003600592101689575002007111136000390830344436005400000477831029100111313256010300444360083600008989700121201113644612103004443600978007085553502712011161083461030044436009780070851635027120111575759410592444360083706988993450221201112963170))
 (.node 1 (.leaf 7656444360035700006451575170201116031939049634443600682000090345501807111166071870619244436006860441691860016080111396939310592101360042300008438450220711115949215103004443600837007189487001212011139840870754944436004670000647562515020111615222309956444360046711296608625151201115713738105924443600714000090375501812111133846280496344436007090000903557517121111932637704963444360071400009029525191211119481394083894443600682000090245002012111141950930000044436002210000639339025020111316462809883444360083702028948700121201113400002105924443600719000090225751712111161441130496344436007140000900250020121111681199508590444360070900007010475211001116114651)
 (.leaf 10592393360045000003821475210711115874498105925953600357000088815251907111127152550988344436008360000865570012100111245301309883444360083700009022575171201116042364105924443600828020484943302812011182977701059244436008280000852933028120111281191710592444360077100009031625151211112923315083894443600714020476594302312111161111800838944436006860000668850020120111334192102892444360066409358534370261201118383892098834443600793000085506751310011133361971059244436008350327881441024100111247735410592444360082802058466330281201112787528105924443600742000090396001612111184879850496344436007041146869539025121111334806910592247360070900004744450220201116139501)))))
 (.node 8 (.node 4 (.node 2 (.node 1 (.leaf 511360092105958538390250201113058235051254443600617007537306001607111182817681017744436000110000869450020071111587642009830444360083500008899450221211115845862105924443600828000084403302812011127119231059244436007090000901965014121111510738210592000360070900008968475211211116272203083894443600643032857595002012011163051190000051136009910000490445022050111251700509489444360080700008730650141011118277078038334443600832105787085251902111160819590077544436008700000644862515020111563090305125444360061700007237600160711112494558103544443600803000075264302312011159715410977644436007193789889552519121111602258604988444360091606049015600161211115923553)
 (.leaf 5229444360091109666685370260801113048074092304443600839000089496751310111160315130969744436008582808880343023100111585939910584444360080300008988525191201115613011105924443600790000090035251912011158334450280544436009820847570170012020111580563002572444360084200795986330280201112484434038524443600932000065794102402011125161300512544436006340000699650020070111583563210302444360055800008377370260711112163297104674443600714000089376251507111122325240124744436008531983763947521020111618456403601444360068928998317450221201116106386040524443600956021386144502202011125267681030244436002210000852845022071111209232409866444360048600005808390250711115880366))
 (.node 1 (.leaf 10446444360062100008853450220711116039003040524443600929120672843902502011163218910512544436008820000358943023100111172092710028444360018300005477450220711112036424102604443600714000089376251510111160364680638744436007770000797650020020111608310010196444360011300006332450220711112309703045434443600689244353775002002011125014120348044436009070000740143023020111584647805237444360000000002407450220501112470361094484443600221000055644502207111122508630554844436000000000736162515020111573984101039444360085800004952625150201116225274050594443600835000081375002010011159528151047044436002210000878145022071111182383705597444360002600007323575170201115731220)
 (.leaf 5704444360085800006295575171001116075328105920003600186000047174102407111113065211059244436002210000887245022071111175988304453444360074235107805525190211115837452063964443600839000075695251912011170303980502344436009070000330445022050111125563309281444360029300004816430230711111537032046164443600766008785665251902011155709190721044436008771334853947521120111576739007894444360092100008916450221201115102216062314443600423000044084502205011159445380500344436000240000365645022050111591861310592000360027300008650410240711118101914096954443600183000057244502207111160467120910844436001640000547745022071111567376706678444360084200004531475211001111340830)))
 (.node 2 (.node 1 (.leaf 5311444360002100002615450220501111003722000004443600790000052625002010011158836570999144436002930000876443023071111143911009651444360022100008383450220711116518198053214443600862000083344752102011158133080704844436008960000664145022100111567165108488444360000000004904450221001117644600083354443600891000088364502210011158855520653444436001340000568547521100111764054608488444360022100005864450220711116082809094824443600183000055644502207111164043570949744436002930000607543023101111243564810007444360002600006304450220711111335641073994443600006000068745251910011157763901015744436001980000617345022071111654282310579444360056700007884330280711115821492)
 (.leaf 360083200005614430231001115794700094974443600341000052014102407111104366370000062636007820000471031029100110979073609886444360083200008836450220711118202468071884443600839000065194302310011161289320988644436007990000871243023071111022238909388444360066400006399450221001109802253090984443600293000088724502210011094571090771744436000060000612052519100111608277703981444360010400006697300020501116647710039814443600113000066973000205011165173030398144436001360000669730002050111399941703981444360045000006697300020501116453596039814443600176000066973000205011090747280984644436008460000669730002161111561076709846444360023200006697300021611110640953))
 (.node 1 (.leaf 10592444360064300006697300020501117939271098464443600714000066973000216111105242090330944436001570000798630002140111833246401296444360062300000599300001501087446708006034443600623000003574502215011144581760031944436006230000058945022150111580304902290444360062300000469300001501088456648002414443600623000004694502215011144222110000044436006230000003345022150109175520300410444360062300000148450221501090860156007884443600623000008504502215010908231180174044436006230000093645022150111332556800346444360062300000585450221501115774473001634443600623000002744502215011151646310033344436006230000074145022100109210786800573444360062300000741450221501114364283)
 (.leaf 2290444360062300000886300001501090473092027894443600623000001983000015011133255680022044436006230000064445022150111523798500015444360062300000148450221501091963107001794443600623000005294502215011156507770046144436006230000057045022100109176330101877444360062300000379450221501090999241022904443600198000000003000015011134826720293744436006230000026630000150111348267201164444360062300000451300001501113325568028294443600623000009783000015010909992410029644436006230000111545022150111437515200297444360062300000774450221501114622487004154443600623000001684502215010924271300084444436001980000000000003100111577998703200444360019800000000300001501113482672))))
 (.node 4 (.node 2 (.node 1 (.leaf 3200444360019800000000300001501113482672025494443600623000010303000015010915017390058644436006230000128345022100111498411001100444360062300001435450221501115640943002554443600623000002214502215010930755230180044436006230000070045022150109200352503200444360019800000000300001501113482672026524443600198000000003000015011134826720135044436006230000093630000150109200352500182444360062300000491450221501094233691006934443600623000012614502215011144050290141244436006230000114945022150111519521200155444360062300000178450221501093733763002534443600623000002604502210011147546240320544436006230000010345022150109250455803040444360062300000104450221501113482672)
 (.leaf 3040444360062300000097450221501113482672030404443600623000000434502215011134826720304044436006230000000000003150111348267203379444360019800000000000031501113482672002234443600623000009564502215010944414720006044436006230000037645022150111529625803379444360019800000000000031501113482672033794443600198000000000000315011134826720337944436001980000000000003150111348267203379444360019800000000300001501113482672033794443600198000000003000015011134826720337944436001980000000030000150111348267202823444360019800000000300001501113482672028234443600198000000003000015011134826720299244436001980000000030000150111348267202814444360019800000000300001501113482672))
 (.node 1 (.leaf 2959444360019800000000300001501113482672029794443600198000000003000015011134826720308744436001980000000030000150111348267202290444360019800000000300001501113722576031024443600486000000003000015011134826720243344436006230000009730000150109300480200466444360062300001230450221501095024715005414443600623000011804502215011145202930042544436006230000051045022150111511126700000444360062300000007450221501094647282031894443600198000000003000015011134826720318944436001980000000030000150111348267203189444360019800000000300001501113482672015054443600623000001363000015011133255680040044436006230000126145022150111485405900186444360062300000573450221501115629432)
 (.leaf 458444360019800000000000031501115122646003524443600623000000094502215011147033610318944436001980000000030000150111348267203188444360019800000000300001501113482672031884443600198000000003000015011134826720310244436004860000000030000150111376937503102444360048600000000300001501113482672009224443600100000005343000010010958024460362444436001980000000000003150109450041203188444360019800000000300001501113482672031884443600198000000003000015011134826720311544436001980000000030000150111348267203077444360048600000000300001501113482672031024443600486000000003000015011134826720116344436001000000101030000100111456839303131444360019800000000300001501113482672)))
 (.node 2 (.node 1 (.leaf 3200444360048600000000300001501113820021023344443600486000000003000015010949971150147844436006230000056730000100109499711500338444360062300000123450221001113325568032004443600486000000003000015011138467560310244436004860000000030000150111348267203102444360048600000000300001501113482672031024443600486000000003000015011134826720310244436004860000000030000150111348267203102444360048600000000300001501113482672023094443600623000002543000015010954928370162544436006230000141745022100109705114903272444360019800000000300001501113325568022784443600198000000003000015011133255680232044436001980000000030000150111332556802450444360019800000000300001501113325568)
 (.leaf 2725444360019800000000300001501113482672025814443600198000000003000015011134826720318644436004000000000030000150111348267203137444360048600000000300001501113482672031834443600486000000003000015011134826720317844436004860000000030000150111348267203200444360048600000000300001501113874415023094443600486000000003000015010959875430230944436004860000003730000150111348267201046444360062100000436450221001097752014023714443600024000008864502215011146229410265644436006230000065525032150109778670602409444360019800000035300001501113325568027554443600198000000003000015010964811930278144436003490000000030000150111393244902781444360040000000000300001501113932449))
 (.node 1 (.leaf 2781444360045000000000300001501113932449027814443600486000000003000015011139324490278144436004860000000030000150111393244902781444360048600000000300001501113932449032774443600486000000003000015011134826720320044436004860000000030000150111390298403102444360048600000000300001501113482672015594443600013000005834502207010988582580155944436001360000055845022100111546136800280444360045000000573450221001098812155016184443600623000004902503215011148597590318644436004860000000030000150111396279603271444360048600000000300001501113482672032484443600486000000003000015011134826720320044436004860000000030000150111393244900564444360062300000558300001501113325568)
 (.leaf 1559444360006000000529450220701098578849015594443600033000012614502207010989731960155944436004130000118045022070109886947102145444360087000001528450221001115080566031864443600486000000003000015011134826720318644436004860000000030000150109746517803249444360048600000000300001501113482672032644443600486000000003000015011134826720320044436004860000000030000150111348267203200444360048600000000300001501113482672032004443600486000000003000015011134826720320044436004860000000030000150111348267203200444360048600000000300001501113482672032004443600486000000003000015011139627960320044436004860000000030000150111396279603102444360048600000000300001501113482672)))))))
 (.node 32 (.node 16 (.node 8 (.node 4 (.node 2 (.node 1 (.leaf 3102444360048600000000300001501113482672031024443600486000000003000015011139627960163544436008700000091645022070109939324801559444360035700000468450220701099230943015594443600585000007744502207010990391430224044436000260000096757517150111472802002661444360048600000000300001501114026079031864443600486000000003000015010979554380160144436004860000012130000150109795543801133444360062300000339300001501097955438024854443600870000009524502207010998091540236644436002260000080545022070111596839801559444360087000001339450220701099633485024004443600870000013544502207010995332490247244436008700000139645022070111544130803075444360002600000978450221001115736290)
 (.leaf 1998444360028300001051600161501115114876026614443600486000000003000015010984444910318644436004860000000030000150109844449101341444360062300000470300001501113325568004804443600623000004263000010011133255680190844436008700000109245022100111478662401559444360087000000850450220701099512267020674443600932000014174502207011003747940053544436006230000148462515100109996100301648444360062300001474600161001115206553031864443600486000000003000015011140927120318644436004860000000030000150109891997502396444360048600000000300001501098919975006514443600623000001383000015011133255680155944436009720000142745022070110039116602895444360078200001465450220701115552977))
 (.node 1 (.leaf 366444360062300001506625151001100094307025294443600026000009415751715011147919160045144436006230000065260016100110058352703610444360048600000000300001501099163242010324443600576000008635251910011153906260076544436005760000079852519100111402451701870444360087000000529450220701100613199023664443600870000012834502207011159637390236644436008700000135445022070111603117901559444360087000001354450220701115469703016434443600989000013544502207011003514240260144436008700000143545022070110081779003006444360094800001465450220701100696243015884443600870000014434502207011006983080043144436006230000150760016100110013411001522444360062300001105700121001100768098)
 (.leaf 1702444360062300001017450221001100349110030194443600026000010985751715011007746400070644436002320000053960016100111516681700618444360062300000759600161001115574203016594443600486000000743000015011133255680303744436004860000000030000150109940584903037444360048600000030300001501114162571003444443600623000002613000015010994058490133844436006170000104252519100111589909202366444360087000001396450220701100765926015594443600958000014354502207011006368820164344436009480000142745022070111555704201643444360084500001417450220701100539300026014443600870000013964502207011152940830300644436008700000145345022070111590070802746444360087000001435450220701100377079)))
 (.node 2 (.node 1 (.leaf 3089444360087000001490450220701101367329007074443600623000012674752110011010697440173144436006230000100945022100111597948501731444360062300000936450221001115511723023674443600026000010035751715011152276210076044436006230000084160016100110070774202034444360048600000000300001501099647781036104443600486000000003000015011141986700303744436004860000000030000150109964778102071444360061300001450525191001115544093022194443601096000015354502210011147216070295644436010060000152845022070110117727302366444360097200001443450220701101273952017174443600845000008674502207011006284360000062636008700000141745022070110118438900000626360084800000898450220701100835303)
 (.leaf 2856444360087000001453450220701100838532032654443600870000015354502207011009042890238744436006230000111045022100111431087201680444360062300001165600161001114431549020084443600026000010525751710011009501280128044436006230000052460016100110105862402431444360048600000000300001501114235527036104443600486000000003000015011142355270361044436004860000000030000150111423552703610444360048600000000300001501114235527036104443600486000000003000015011142355270361044436004860000000030000150111423552703610444360048600000000300001501114235527037784443600896000015424502207011152078070292944436008880000149045022070111486519502366444360100200001427450220701101817592))
 (.node 1 (.leaf 1643444360084500000741450220701101039155017174443600009000005004502207011009698830171744436002730000048145022070110104555902445444360084800001379450220701101393588105924113600845000009784502207011163364260285644436008700000147945022070110143419203056444360087000001510450220701101510388036994443600870000015184502210011153716140135944436006230000105970012100111547323702029444360062300001056450221001101354623017184443600623000010744502210011152675820231744436006230000111845022100111482280401280444360032200001079600161001101542268009964443600623000006556001610011148820370361044436004860000000030000150111427312503610444360048600000000300001501114273125)
 (.leaf 3610444360048600000000300001501114273125033704443600486000000003000015011142731250321844436004860000000030000150111348267201785444360048600000000300001501100129538001844443600623000000603000015011133255680364244436008750000147945022070110140637203766444360087000001518450220701115785891028274443600870000014354502207011012335840236644436010630000142745022070110196503602366444360084600000557450220701115195035016434443600627000014174502207011161606131059241136008450000089845022070110138808605126444360084200001217450220701101478585028564443600856000014654502207011158269880011044436008480000152445022070110155215600005444360084800001542450221001115321128))))
 (.node 4 (.node 2 (.node 1 (.leaf 83444360084800001535450221001115096343017544443600623000010254502210011018659300047244436006230000046460016100110195075200552444360062300000472600161001101849513009454443600623000006476001610011011877370007544436006230000056460016100111586311802259444360048600000000300001501100369329017854443600486000000003000015011003693290330544436008850000154745022070110144883903012444360093200001443450220701116239198016434443600845000008054502207011013875070164344436000190000038345022070110145123201643444360001600000436450220701101426060024454443600014000004514502207011157831400244544436008450000089845022070110156148810592411360084500000766430230701101667446)
 (.leaf 5126444360055800001199450220701101488432017834443600845000011494502207011018113030170744436008030000128345022070110229154503265444360077900001417450220701101707533026754443600858000013394502207011022533880000044436008480000151045022070110171232400000444360084800001435450220701101977589000004443600848000014274502207011149542640002544436008480000146545022070111555847900001444360084800001321450220701115819862016384443600623000009924502210011021512510160944436006230000107445022100110159263901331444360062300001030450221001102121319004464443600623000005546001610011150388970000044436006230000006660016150111539894400674444360048600000114300001501113325568))
 (.node 1 (.leaf 4704444360066400002856550180701101706929058094443600689000047295501807011160409270232244436010600000063847521070111578578703639444360088500001528450220701114816753033224443600932000014794502207011158048921059238336001860000039545022070111594789901643444360002600000357450220701101857792016434443600026000002444502207011145583690164344436001360000077445022070111578672303181444360084500000898450220701101950614051264443600845000008674502207011018452640512644436001570000107645022070110227613502675444360068200001396450220701101897547000004523600643000011994502207011018151930000000036008480000124545022070111604940100000444360084800001354450220701115804161)
 (.leaf 11444360084800001479450220701116034720000124443600848000013214502207011153013530001244436007820000075147521070110229085600365444360002400000315550180701102095134014924443600777000014694752107011154956930088044436008480000133239025100110230015002425444360084800001416390250701114669318017584443600623000010174502210011024200480133744436006230000104545022100110272300801864444360062300001030450221001115235391014004443600623000010564502210011018025180078044436006230000107347521100110227907901057444360062300001106625151001115131328008714443600623000006926251510011145216080095244436006230000089460016100110205157103370444360048600000000300001501100846641)))
 (.node 2 (.node 1 (.leaf 2948444360048600000000300001501100846641020244443600486000000003000015011134826720341144436006170000401055018080110236436800000444360068900004189550180701115911523034874443600882000015424502207011146588250379544436008910000151045022070111539788702947444360086200001435450220701116731331029474443600839164514534502207011024678601059238336002570000026745022070110213251401643444360000000000805450220701102435413016434443600845000008674502207011025529900244544436007420000043645022070110238403303181444360084500000850450220701115485503105924113600845000008434302307011159653570178344436000020000103845022070111610157400000452360000700001217450220701102015725)
 (.leaf 1372444360084500001443450220701102293538012174443600845000014534502207011027742450139644436008700000147945022070110239084801789444360095400001300450220701102035733006664443600283000010384502207011021499410000062636006390000076050020070110221652700850444360062300001155625151001102240357018954443600623000011846001610011142268080239844436004860000000030000150110108412600000444360068900002445550180801102232697105924443601000000056355251908011026436660000044436006980000565755018100110263723702250444360082500000969500200701102626834031914443600879000014174502207011030774350389044436008900000147945022070110303966402947444360095100001025450220701102699235))
 (.node 1 (.leaf 10592383360017000000157450221001102786513016434443600008000002674502207011018306510164344436006560000088645022070110261357004783444360084500000936450220701115379531047834443600845000008504502207011155567170478344436008450000074145022070111519048110592411360084500000824430230701115903822051264443600845000007583702607011158304240512644436008450000077039025080110235327305126444360006400000367450220701102576400000004573600014000005734502207011023859790000045236000110000133945022070111608195001372444360084500001412430230701102526979006494443600232000005164502207011152512300064944436000010000026745022070110226941000931444360040000001010450220701115911467)
 (.leaf 1110444360105600001427450220701115352093006664443600026000002184502207011023750340000048836007190000059547521070111582652300000444360084800001501450220701113956461013354443600605000040183302808011151348140167044436006230000093645022070110228699702376444360062300001037450220701116280677012024443600623000005246001610011160541170054644436006230000051462515100110295229501703444360062300001173600161001114848166011194443600623000009286001610011158090670247044436004860000002930000150111348267210592044360002800001985575170701102356338105920443600517000048146251507011158415891059204436005670000486962515070110222907210592444360038400005301600160801102653612)))))
 (.node 8 (.node 4 (.node 2 (.node 1 (.leaf 3417444360104100001469475210701116090290029414443600664000014305751707011164443460158044436010040000152547521070111487993002002444360089600001470450220701115865875038904443600870000015104502207011033903520294744436008720000142745022070110272710800000505360030700000367450220701102614426016434443600837000004264502207011025380620478344436008450000080133028070110279961505126444360084500000701370260701116040106051264443600803000013794502207011030960340512644436000070000030345022070110309670900238444360084500001076450220701116260647000004443600011000010384502207011158911250000045236008450000134843023070110310236500000355360084500001427450220701103200465)
 (.leaf 1081444360094800001443450220701115430114010814443600958000014654502207011028705320108144436000260000032245022070110285591900078444360022600000199450220701114803805015664443601010000014274502207011036556660008644436000240000022755018070110355116600238444360084800000680450220701102992861000004443600848000009364502207011028127791059229536006230000095245022070111504321210592295360062300001017450220701116126226073414443600623000011284502209011020713570266244436006230000111045022070110247899802825444360062300000694600160701115104104012314443600623000006476001610011026068640123144436006230000056460016100111631204401457444360062300000676600161001114781732))
 (.node 1 (.leaf 2846444360048600000000300001501101556666036104443600486000000003000015011144716380361044436004860000000030000150111447163803610444360048600000000300001501113482672028654443600486000000003000015011134826720247044436000060000003530000150110155666600000494360002800001704550181001103186847000004443600048199944276001607011029230930161644436009610742549752519080111522428510592420360092300006391550180801115478418063314443600192000052746251508011154537210633144436001640987550562515080111576139306659444360098600004717500200701102955731033114443600634000014615501807011041790670302744436008710000136647521070111620174304062444360089700001528450220701115410910)
 (.leaf 2947444360085800001435450220701115399309029474443600007000003674502207011030039740478344436008450000063733028070110292609805126444360001100000261450220701103331746002384443600005000006144502207011033728610078644436000260000032245022070110283552900074444360002600000558450220701102871201000005963600849000012614502207011159006510124444436009800000130045022070111522247800000487360084800000368450220701103043605000004873600842000004364502207011031086270000048836008390000130145022070110311708000000444360084800001354450220701103073665073414443600623000015354502207011146451530081144436006230000050960016100111640052601276444360062300000605600160701103233158)))
 (.node 2 (.node 1 (.leaf 2007444360062300000464600160701115277355020254443600623000007106001610011159810200056644436006230000057960016100111594619700589444360062300000894600161001115356737009334443600623000009486001610011153249950298644436004860000000030000150110179168403370444360048600000000300001501113482672031524443600486000000003000015011134826720486644436004770000401957517070111473366310592420360110100005972500200801103198338031544443600955000062275251907011031435720000044436010430000666850020070110342504300000444360082500007703525190701115985983035534443600897000070645251907011037340850439744436000320000398047521070110297094303027444360085300002013475210701103274459)
 (.leaf 4217444360087000001490450220701103720528038234443600839000030624502207011032278660000044436000090000036745022070110299647900000444360000500000367450220701102705989047834443600273000008354102407011030634100000044436007790000059137026070111512940505126444360084500000716390250701102709888051264443600845000008864502207011160012220512644436008190000135445022070111650270605126444360014800000303450220701103440746000005073600592000011494502207011032961910000044436007930000118045022070110315998000000444360074200001261450220701103156145000004443600016000004024502207011030958510078644436000260000036745022070110342150400000626360083500002364450220801103262090))
 (.node 1 (.leaf 487360084200002991450220801103413962000004873600807000034684502208011034613000023844436008070000234245022080111562947400238444360080700002820450220801103507999000004443601141000009433902507011145205360000052136011410000098339025070110290755300942444360062300000694600160701103213424027114443600623000007396001607011158041940115144436006230000071060016100111626159400000460360062300000676600161001103831677014804443600623000007106001610011151613890298644436004860000000030000150111455563100000494360029300003880575170701103130737000004443600828000057856251508011031113190626844436006560000534055018080110384997505823444360071400006325550180801115047601)
 (.leaf 5149444360071400006325550180801103842911058374443600885000078195251907011145181360355344436009660000858943023080111556507810592444360095500007239550180701116202602105924443600771000015276001607011040143781059244436008560000439645022070111594471600000490360000000000357450220701114721812004204443600003000003674502207011156789440164344436000110000038345022070110330894804783444360000000000831450220701114991248033474443600845000008984502207011031283390512644436007930000141745022070111627510205126444360084500001321450220701103396655002384443600000000006144502207011034531020000044436000050000014045022070110351103500000452360000000001230450220701115124832))))
 (.node 4 (.node 2 (.node 1 (.leaf 444360084500001479450220701103473765047474443600627000003954502207011159996960000057936000000000041645022070110366414000000444360001000000244450220701103109224007864443600400000003454502207011041379170078644436000260000035745022070110352978200795444360010400000436450220701103593821008704443600221000004164502210011146604750125744436008440000128345022070111501646000360444360080700001883450220701114934227007854443600807000030134502207011040668550000048736008070000295445022080111510515700238444360080700003341450220801115766319002384443600807000030864502208011163287070000044436006860000128162515080111633082000000444360113700001409390250701103431471)
 (.leaf 444360114100000934390250701103643852000005213600858000008046251507011032656100000044436007190000108762515070110386608300942444360062300001147600160701103289595000005433600623000007566001607011148882310158144436006230000068660016100110348391104079444360062300001206625150701114342159003704443600623000004646001610011148897680298644436004860000005030000150110225912602986444360048600000000300001501114598539029864443600486000000003000015011145985390298644436004860000000030000150111459853902971444360048600000000300001501114642031052874443600028000050636501410011145528930458944436006820000356555018100110363917310592299360048600004590600160801115975647))
 (.node 1 (.leaf 10592370360079300004590600160801103949160058384443600689000054785501808011034557190713944436007140000635755018080111550593004397444360094800007136475210701115639390041744443600643000042845251907011146449060403944436007040000447460016070111608799910592444360089800004421475210701103840614038234443600549000045796751307011162878560000044436000140000038345022070111612309200420444360000200000395450220701115895587016434443600000000008314502207011035823310164344436000000000086745022070110392858301024444360059200000741450220701103521088051264443600307000008324302307011034726760473544436000090000101045022070111507723900000444360001600000609450220701116300910)
 (.leaf 452360002500000401450220701116053566000004443600627000007144502207011155117580000052736000050000041645022070110364556500238444360076600001843475210801104133124000004933600617000012136251507011039913340000050236006170000124162515070110385928700000521360114100004103390250701114251364000004923600623000011266001607011150594670180744436006230000073960016070110389575301322444360062300000589600161001103963831031604443600623000012066251507011140223370262744436006230000174130000150111332556802971444360048600000000300001501102491515071924443600845000056976001610011162505460609444436009380000615962515100111591043005850444360107100006171475211001114500789)))
 (.node 2 (.node 1 (.leaf 2445444360018300004324575170701116018797024454443600682000050355501808011163675551059239636010960000642152519080111597439906264444360091900006480550180801103902806079864443600567000076215751708011040939810798644436005760000788957517080111600041410592444360055800008910575170801104304414105924443600917000076555501808011041534780355344436009680000876345022080110428512510592444360089800006690450220801104304697036754443600803000044955751707011034460870000044436008370000449755018070110446137010592444360087900004420500200701104771390000004443600576000044166001607011045622880000044436008450000043645022070110417664100000444360002400000481450220701104110177)
 (.leaf 4142444360045000000892390250701104219110000004443600000000004684502207011041712190181544436008450000062039025070110388672401815444360084500000860390250701116342815051264443600845000013323902507011040390910512644436008450000125339025070110460307605126444360002100000199450220701103968470105923433600000000010104502207011154425060000050736000040000101045022070110366889100000507360017000001038450220701103817184000005073600000000008574502207011046075180000045236000210000032245022070110396632500000452360000600001038450220701104032073000004443600048000011494502207011045762220000052736000000000026745022070111622786200420444360068600000451450220701115388456))
 (.node 1 (.leaf 1500444360087000000567450220701104437907013554443600807000033444502207011034193120051444436008070000228545022070111513360000000560360077100003998475210801115202584002384443600709000018434752107011041635500023844436006820000195847521080111528708002037444360083500000652600160701115499756000004443600664000037174752107011161479940000045336008580000274762515070111514535910592401360062300000739600161001103956964064194443600793000057676001608011042175361059239636010370000577752519080110418285604397444360071400006357550180801115203801105924443600845000044395751707011166018650000044436008580000449852519070110502803010592444360057600004351600160801104760340)
 (.leaf 444360077700005468450220801104451326004204443600000000003834502207011039197420512644436008450000129339025030111628925310592343360000200000518450220701116200579000004443600014000005014502207011042578750000044436000110000061445022070110426589400000579360000100001149450220701115539957000005793600005000004514502207011045684500000050836000110000029645022070111514831400000527360000600000267450220701103994677000005333600742000017324752108011044860230203744436008350000175960016070110440880800000493360083500000208600161001116304570043974443600835000002796001610011160600270000053936007990000115562515070110365032100000444360062300001156600160701104193363))))))
 (.node 16 (.node 8 (.node 4 (.node 2 (.node 1 (.leaf 10592401360062300000756600161001104003201021764443600623000006056001607011150688990145744436006230000072562515100110384987702826444360062300002258300001001113325568025684443600486000000003000015011029535400564444436006340000498155018100111598306205385444360068900004152525191001104632664043974443600613000066395501808011044349911059235736009930000585552519080111612340800000444360096800007235450220801115524410035534443600904000088465751708011165148631059244436006640000665060016080110484489710592444360060100006902625150801116336096000004443600888000044425002007011163976740000044436008720000445652519070110484949003555444360087800004420500200701104671728)
 (.leaf 10592444360087100004476550180701104371210004204443600000000004364502207011040440640414244436000000000052945022070110494236905126444360081900000919390250701104475402051264443600004000008574502207011048987100000055536000000000098745022070110474341800238444360080700002407450220801114800577002384443600771000042234752108011155620620569744436007770000254855018080110491236903618444360114100004222390250701104296069000004443600858000028886251509011159672940023844436008580000294662515070110484013300000626360064300001155625150701104436729027084443600623000010796001607011140785400211644436006230000079560016100111447662700727444360062300000539600161001115660504))
 (.node 1 (.leaf 3584444360048600000000300001501103183140025684443600486000000003000015011031831400572944436007420000537760016100111507850105813444360089000005377600161001116150594059334443600689000047155251908011160362190439744436006890000547855018080111600826207383444360071400007817550180501115233800105923573601048000060645251908011044058410439744436007140000587855018080111555617206355444360071400006357550180801115826154031124443600790000088636751308011157434241059244436010360000422745022080110500225010592358360063900005310625150801115727461105923583600656000065245751708011164054540000044436008620000447655018070111635834410592444360057600006728600160801105075948)
 (.leaf 4195444360084500001229390250701116506652051264443600832000014654502207011050778120512644436008190000066739025070111533716205126444360001500000901450220701105066344000004443600008000007144502207011046229960000044436000000000074145022070111530738400000444360000500001076450220701115172707000005793600000000005584502207011043090310076244436000000000038345022070110493592200000444360080700004030450220801104996850000005573600793000037244502208011163873120023844436008070000427045022080111624189600238444360080700002820450220801114991390035544443600819000024615751708011050725950355444436008350000237460016080110487990410592186360083500000279600161001105011570)))
 (.node 2 (.node 1 (.leaf 582444360083500000691600160701104718080000004443600832000031126001607011048175700000055136011410000342939025070111445778100238444360085800002897625150701116604900000000003600842000012866251507011151465120073444436006230000076360016070110470196500947444360062300000756600160701104445059043974443600689085057305501808011050765700650344436006890000524955018010111632579507730444360071400006481525190501114344220075354443600714018276845251905011156658510460344436005580000881452519010110525282510592444360071400008949675130801105010549105924443600846000073315751707011050175511059237636008490000509955018070111628396803555444360083200004564600160701116481996)
 (.leaf 10592444360089800006971575170801114902564105924443600891000077935002008011053460650000044436003490000043645022080110456376200420444360084500000451450220301104645327046774443600845000007703902507011155495940512644436004310000123743023070110498451305126444360000900000336450220701105566978000004443600000000008574502207011162134040000046936000000000119945022070111632029400000579360001400000199450220701104882249004204443600837000006084502207011160858300222944436008240000141745022070111613444100000557360080700004283450220801105714859035544443600835000022946001608011053028980000044436008580000292662515090110458829204118444360062300004468300001501113325568))
 (.node 1 (.leaf 3368444360048600000000300001501103639432017994443600486000017463000015011133255680574844436006893572612052519050111520802704397444360068900005358575170801104859282073264443600627062865345002005011144005691059231236007140000735452519050111626929510592321360092800005923525190801105714878105924443600714000063255501808011162578590569744436008880000779350020050110514833203949444360055800008588475210101105188915045114443600742000078086751308011156708690000044436008440000576857517070111505618810592444360080700005338450220801105165460105924443600000000051784502208011156312930000044436000000000285845022080110531997200420444360081900000500450220301115244103)
 (.leaf 5126444360084500001354450220301115677934051264443600845000014124302303011055236300512644436008450000142745022030111608225305126444360084500001465450220301116946565000004443600004000005184502207011054907010000044436008320000119945022070110529072400000531360000600000558450220701115365037000004443600000000009874502207011162288540151244436000320000039545022070110535125900000557360080700004283450220801116278232000005633600807000019524502207011054254110000044436008070000261245022080111633560700000594360082800002750450220801115705574000004443600835000027876001608011054290450000044436008350000059660016070110522559600000588360111500003327390250701105317968))))
 (.node 4 (.node 2 (.node 1 (.leaf 444360114100003403390250701114763190000004443600858000036296251507011161854380247644436004860000000030000150110386608704609444360046700003188600161001114863799105923073600714000071726251508011054084311059244436007140000594355018050111586217010592444360071400006086550180801105789860045114443600714061989906751308011060200960244544436010110000743847521010110595551206814444360084500000800390250301105874742051264443600845000013394502203011163766400512644436000000000103845022070110548869900000444360000300000436450220701115264307014044443600010000009564502207011056479920000044436000190000111545022070110514234300000444360000000001010450220701115414996)
 (.leaf 1128444360082400001794450220701105651384007624443600232000004024502207011055824420076244436007900000058345022070110562155800722444360002600000296450220701116325261000004443600807000018084502208011055163310000044436008350000343545022080111545700000000444360083500002164600160801105566437002384443600835000029406001608011055405170355544436008350000184760016100110595438900000444360083500002988600160701105798868038034443600858000028746251507011053811690073444436006430000218662515070110542784300000444360085800000769625150701105224518000004443600858000007556251507011144614660244544436006230000080360016070110503416003383444360062300002279300001501104091726))
 (.node 1 (.leaf 3050444360048600000000300001501113482672048814443600689196831886001610011152138351059235936006890000511960016080110536013210592444360083200006001525190801115677225105923493600835000074335501805011054508801059244436008580000774050020050110596411604397444360052800008221575170501106049963105921903600605000087306501401011156291871059244436009040000790945022080111629266600238444360086500007891475210701106868717047154443600793000080706001608011157932210489044436006890000758862515080111564202403236444360084500002369450220801115248680000004443600000000005004502203011058948950507144436008450000127239025030110558817105126444360084500001402430230301115773364)
 (.leaf 5126444360081900001474600160301106481142051264443600845000013964502203011164434120512644436000090000019945022070110601098001914444360087000004257450220701116538337007624443600704000004684502207011059355550098844436008070000154245022070111584022200000563360057600007287475210801105982182037724443600567000054044752107011164827901059200036002070000321657517080110590206200238444360062100002420525190801105525913002384443600853000029746251507011058184540218144436006390000070962515070111583358402419444360062300000756600160701105497705032074443600024000007134502210011149257450381544436006230000430230000100110431633101503444360048600001047300001501113325568)))
 (.node 2 (.node 1 (.leaf 4413444360068900002859600161001105713633014034443600689000033075501810011059968210000044436006890000440955018100111603987808589444360002800006747650140501114469958105924223600714000075695251901011144755161059244436007140000632652519050110580046010592444360071400006702525190501113543644105924443600953000075744502201011066918230244544436008370000707547521010110726826010592243360084900008629450220801105826923105924383600704000087055501808011068169371059244436008670000854747521080110718781504715444360089000008760450220701116771108047154443600890000085094502207011166446950323644436007420000155645022030110587155500420444360084500001339450220301116321928)
 (.leaf 4397444360084500001253390250301115618359045644443600845000012723902503011162526080000053136000020000060945022070111638681400000626494002200000436450220701115451636000004443600003000006094502207011151894070236044436000320000035745022070110660836700373444360036600000322450220701115446724006474443600176000003674502207011157269030000055736008070000409245022080111487142800000557360080700005454450220701106161982043174443600232000074605251907011157780510000044436000320000155555018100110651548300000444360020700002332525190801115292445002384443600431000029315751708011153894500000044436008350000278760016080111623227700000444360007200002910410240901116670482))
 (.node 1 (.leaf 1329444360064300000709625150701105575503033924443600024000006584502210011063611550249444436006230000203530000150110453988704080444360068900002268600161001105833195105924373600689000050695501808011148693030355444436006890000690557517080110586207210592444360071405877490525190501105997043105923823600714000060645251905011156081781059242236007140000768452519010111450723504254444360089100007893525190501116781650041964443600858000072075002005011072496891059244436007090000891857517070111648152304715444360087000008661450220801107048176000004443600824000085705251905011165265050323644436008450000491245022030111619505505240444360084500002105450220701106044228)
 (.leaf 6814444360090800001895450220301115335967000004443600845000011494502203011062594660000044436000050000019945022070110604083800000450360000403740401450220701116682136000004443600000000005184502207011156351190000044436000030000040145022070111486519401713444360002600000625450220701115491110010034443600807000015424502210011067291760000056436008070000673745022070111714561800420444360045000002467430230801116106949000004443600617000033464302308011071360250000062636005760000425557517010111590359600238444360046700003592625150801116238660000004443600835000026946001601011165153030023844436008450000698133028080110631408410592195360068900002803550180701107075708)))))
 (.node 8 (.node 4 (.node 2 (.node 1 (.leaf 444360068900002831550180901115462021014044443600858000008046251507011072818800368844436000240000069945022070110724359005058444360068900004687600160101115118035035544443600689036257676001601011061037781059244436008190000765257517050111601709006190444360083500008799500200501107129179048594443600835000086945002005011071815440512544436008530000720750020050111632666705125444360011600006669475210101107147953048894443600442155686934502205011175505980681344436007900000871660016050111621987910592444360082800008758500200701116354293105924443600890000088424502208011064083101059244436008560000869345022080111573953703083444360055800008804650140501106552682)
 (.leaf 5126444360000000006258450220501106723304032364443600845000038684502203011155758680461944436008450000184845022030111529957000000444360084500002942390250301114950600041034443600824000030364502203011061973880000044436008450000121745022030110644310701165444360000300000357450220701116832404053664443600871000050934502207011149519680269744436004670000234245022070110688708201269444360043100001844450220701106508586002384443600366000060985002007011162087620000044436003410000403657517010111710254200762444360083500003546600160101117475705000004553601107000072653902508011073395240000014736008450000565633028070111676817500000444360082500006263410240801107445067))
 (.node 1 (.leaf 449360068900002947550180701114719829033924443600024000007134502210011075187060000062636000240000064545022070110758547503826444360002400000594450220701117194737033014443600024000006494502207011164309100534644436006890551373060016100111505872604771444360068900004153575170801116749006000004443600689000044765501801011166640110000044436006892764671252519010111572681510592422360087200007767500200501107152281105923843600858093977954752105011170582641059234636008580000762750020050111756002310592444360085800008833500200501108041386051254443600844000088695002005011079696351059244436008360000888545022050111528827310592444360082400008659450220101116639786)
 (.leaf 4876444360087000008693450220501107022218032364443600777000058544502205011063843430323644436008450000564345022030110716642405240444360084500003938450220301106615197000004443600858000038954502203011073973640328644436008450000068045022030110682632202855444360010400001006450220701115877635026684443600000000004844502207011166617460070044436000000000043645022070111559633500700444360000000000383450220701116573131032764443600247000017644502207011070811620037244436000210000100145022070111536171700000444360001000002342450220701115777838045964443600807000051124502207011161290230000056436007820000757247521070110821877703428444360002200008418600160501115097582)))
 (.node 2 (.node 1 (.leaf 626360083500004105600160101117766598000004443600576000053075002001011088805720076244436011410000735939025090110822947510592195360033400004906600160901108276252014044443600689000029475501807011077791740484344436006890745449657517010111614809310592444360082829646299550180501117262277105924223600919000077935002005011168339441059238436009640000787252519050111635970405125444360082810907376475210501116344046068144443600032291487104502205011174795030512544436006821972895555018050110710058810592444360060100008979625150801107597967000004443600627000088926001605011153389620000044436006980000889455018050110799711403121444360080700004685450220501117048650)
 (.leaf 6362444360084500004823450220501107564762011654443600357000021264502208011167463710327644436008250000286045022070110705477800052444360080700004977450220701115573418008524443600198000035874502207011154301430476644436006890000370860016090110815065400010444360068200000732600160701108067470038004443600024000006794502207011081185690000062636000240000072745022070110784374103845444360002400000629450220701115992857105924373600704150758785501801011156029931059243736006891952668357517050111644862410592444360084429456227525190501107888867105923843600836163279505751705011176677890540244436008280000883645022050111807208410592161360082800008588475210501116263863))
 (.node 1 (.leaf 6815444360082412388694500200501108284420051254443600799000088495251905011162788030681444436000262779876345022050110858082705125444360083600008931450220501115129770105924443600836000088364502205011079891920140444436007140000891155018050110829714000238444360000000005854450220501117212388000004783600845000047994502205011072799920000053236000090000289845022080111663340300000545360000000000401450220701115834375000005453600793000022224502203011170379810398244436006270000169445022030110737245700000444360084500000741450220301107297315046464443600000000003834502207011077864010507644436008070000699745022100111617586804958444360080700007116450220701108315556)
 (.leaf 10592394360029300003572575170801108249008000004473600032000035245501808011162011200000044736004230000489050020080111764386903555444360113000007487390250501107897930051264443600856000070013302805011172685631059244436006890000657062515090111589444710592192360068900003672550180901108030438040974443600024000007324502207011080669310106044436000260000175557517070110816301010592228360082816136197575170101108044794105924443600828000076565251905011162979620746244436008281613773755018050111769007010592161360082800008815500200501108012449051254443600828000071744502205011080165560512544436008280000681345022050110849642510592408360036614886270450220501108108927))))
 (.node 4 (.node 2 (.node 1 (.leaf 10592029360087200008944450220501108401428105920293600929000088184502205011077210730464144436008620000897645022050110793966300000444360000300005945450220501108007251000004443600807000066894502205011081601740000044436000640000541445022050110817947700000444360001100002320450220301115973963027574443600357000020364502207011168333920469944436009840000490152519070111581587005180444360080700008287450221001116458083024454443600349000059065251901011161855230076244436011410000733739025050110857085201404444360102800008844500200501107985152015764443600686000029015501807011084142640524444436000250000275555018070111527575101685444360002400002036500200701116192913)
 (.leaf 4864444360068923235168550180501115612451085424443600828053089685002005011164245721059244436008280000779350020140111542359910592422360082800007793500200501107898208105924223600828011776584752105011084992791059238436008280000757445022050111684708706815444360080723237252475210501107923710105924083600930000088184502205011084084050423644436010090000880145022050110879322604916444360079000008801450220501107974648000004443600634000086144502205011174590800524044436000000000668645022050111576194605240444360013400005178450220501115699669035534443600016000022854502203011080776650464644436000040000061445022030110773697606119444360098400005426525190701115795049))
 (.node 1 (.leaf 4009444360047700003154500200101116218995000005653600257000059785751701011080336910076244436006340000713545022010110822127904465444360112200008244390250501108836745047664443600689000066366251509011174082141059233436006890000646062515080110820059310592313360068900004141550180701108581256002334443601141000011624502207011087754970000062636000240000272145022070110815527908029444360082800007789575170501118465058105921613600824032676835501814011082852481059244436007992723755045022050110853066003290444360080700008885450220501108420921014044443600986000088994502205011173677210499444436009210000880145022050110874424804891444360089100008836450220501108233831)
 (.leaf 3554444360080700006846450220501117281513035544443600807000045524502205011162600070000044436000000000253745022050111723171800000444360000300000432450220801108165962000004443600000000020924502203011160618270464644436000000000172645022030110818460606156444360095100005443500200701117385331056544443600984000087004502207011164972260000062636001340000343750020010110865426310592444360068900004947600160901109086729000374443601141000011714502207011174179960000055036000240000448750020070110847112903014444360002600002144575170701108564652062944443600689032363905751701011163456840855444436008280517783662515050111643900010592444360082800007685500201401108553372)))
 (.node 2 (.node 1 (.leaf 10592422360082805177767500200501117829318105923843600828000088534502214011086313320512544436007192596705745022140111810176805125444360017617776884450220501118152428032904443600832000088184502205011084080520140444436010510000893145022050111632525104924444360066413128454450220501116265524000006263600000000004014502207011081382960000054536000010000153245022070110817103900000444360000000000401450220301117076899080904443600941000083834502207011161859720000062636003660000191257517150110849554800000444360030700007524525190501107829344007614443600779000085383902505011175073020512644436007790000849837026050111789609004559444360068200005904600160101108934053)
 (.leaf 626360063400004327450220701117318119000006243600024000037264502207011088962050000055036000260000493057517070111750905900420444360102200006468500200701116186505004204443601001000049725251907011084311840402244436000260000301057517070110874687806311444360080729395964575170501116399971065164443600828000074174502205011163641481059216136008030862745357517050110838279209914444360083220528447350271401108337074032904443600975000085293302814011088506321059244436009530000842533028080110844227210592444360085308628931450221401118159754068144443600807000088724502205011083140890619044436008370000876345022050111719934006814444360000000005899450220501107896317))
 (.node 1 (.leaf 3554444360000000000401450220701117278219000004443600000000002614502207011087565670000044436000000000012445022030111764582900000444360000000000589450220701117244600046464443600000000003834502203011172804780613044436009780000839352519070110871137100000444360083200006002525190101108591714000006263600144000058895002001011083356440319344436010720000891645022050110898597004559444360109000008733450220101116331172062564443600024000046294502207011084886071059206036000240000457045022090111597370904802444360002600003348575170701108375895105921613600799226277115751705011163107970569744436006691287681345022050110876275110592444360082412878306310291401108662916)
 (.leaf 10592000360087012878045270311401108672756105923913600882000083182903014011088242010892444436008790846844931029140110852007405125444360078217498665450220501108513315051254443600000000060414502205011084607610000062636000720000600945022070110856009000000569360006900002278450220701108571291002384443600013000001404502207011174897390000044436000000000026745022070110836896800000536360051700004277475210101117179197000004443600634000076134502205011178325310440844436006640000646957517010111737467200000626360115900005514330280101109188314000005143600634000051414502209011091209360000047236011410000360545022070110880305110592436360002600005461575170901108830007)))))))))))
 (.node 512 (.node 256 (.node 128 (.node 64 (.node 32 (.node 16 (.node 8 (.node 4 (.node 2 (.node 1 (.leaf 444360047700004775575170701108620287057604443600026000041495751708011086864941059241236008280000762750020050110896153810592444360082841728573450220501109596568105921613600862270289386001605011175984571059244436008422599794325032140111748236410592000360084600008025270311401116029671103334443600836066782832903014011091863440601944436010710000883141024140110870747710592127360059206675455430230501116284329000004443600824000079783702605011160590140023844436006231137685345022050111765950100000444360000200000322450220301117201440054134443600890000062074502207011158128980000053636006340000487045022010111612514800000536360065601115168550180101117658593)
 (.leaf 3969444360093301118428370261201109201705058914443600807000082823302814011162366870462644436006690000848741024050110849590804256444360080700007722600160101118325949042564443600945000055136501401011084666341059244436006130000646757517070110901203505775444360002600004255575170701109047182105921613600845161584384502212011175328371059216136007771816705745022120110873460405125444360077112607057450221201115816562056974443600028191264264502205011163506560569744436001981718664145022140111784971110592045360084436567981270311401108722938104834443600836150284793302814011159342320913744436009041995831829030140110921083310592443360082512604547330281201109007871))
 (.node 1 (.leaf 10592444360006400003996430230501109280421002384443600000000033094502205011092277490055444436004500000061445022100110941350600238444360000000000345450220301108782120000004443600104000003834502203011086196580512544436000182155189145022030111732055005688444360094100005585475210701108805243000004443600528000041785501801011162400680000044436006640000506147521010111768169401220444360060100004880500200101108972002039694443600845000083174502205011166146260520044436009040000860050020050111607531004408444360063400008678475210501109327544029324443600819000053475501801011091427400360744436006820000540257517010110940528500000514360063400005071450220901109023629)
 (.leaf 5590444360068900005754575170701116631335105924443600689000064365751707011092694671059206036009520000493252519070110938382206102444360002600004412575170701109439423098194443600828030689314502214011087155351059229236008280110757247521140110924395209604444360078200007523450221401109275273105923623600828148676265251905011097251591059220636007822066841250020120110872112905697444360054917067116450221401109693672103474443600782064783593102914111091755351059221736006981801652129030120111742849300000462360019206472341450221001117593734004884443600032000003574502203011089853550048844436001760000103845022030110868079805125444360006400002273450220701108926144)))
 (.node 2 (.node 1 (.leaf 702444360000400000858450220301108491659056024443600890000063994502207011160944830355544436008670647572445022070111775023204003444360092000008683410241201116358044041384443600698000050494502208011096336310682844436006890000637757517070110932176310592241360002600006429675130701109326755000004443600689000062155751707011095672680023844436006890000651457517090110897228606985444360001300005916650140801117574573096044443600807196776555501805011164608691059236236007041782729745022120110904197110592444360080323958800475211201116257770105921613600793326087634502212011089457831059200036007041359519931029141110957826810147444360076612408392330281211116395906)
 (.leaf 9622444360078204728546370261211115903253105674443600832000086043502710111095161161013144436007190000826831029121111789233902445444360083608134541330281201109033538000005223600002000050064502205011095037460000044436007710963742545022050110908741000238444360018300000470450220301108833165007024443600919000021714502203011090187190618244436008900109642645022100111626454410592415360066400004984450220101117541175000005783600307000047305251901011097836630355544436007820000809845022010111794836403555444360059200008614450220501116601802048944443600807000061484102405011156449980461044436011120000529937026080111597503504138444360087000005071450220801117241038))
 (.node 1 (.leaf 2445444360087000005120450220801108988153105924443601141000055974502207011093809110245544436011410000451545022070111572766800000444360023200006128575170901109553481002384443600689000077255751707011162177390982744436006341949902467513050111534331310592292360080300008940575170501109555024096044443600824000088155002014011162868191059236236007791769717445022140111612273910592091360084219497417450221201118022642105924443600839333988815251912011162138941059216136007142821688445022120110902885010592161360081927356813450221201108803995105924443600709108668844502212011173805971059200036007711229834133028121110900081609721444360078223168745410241211117472342)
 (.leaf 444360000016795958450220501109120444000006263600007000015764502205011091931860166744436000010000145945022050111609393300000568360023224905076450220511109067513051254443600000000039484502203011091034460512544436001570000570250020050110912222806053444360089000006399450221001116210032063104443600976000052154502207011158806200607244436006010000527647521010111010982305126444360115900005834330280801108703578029814443601155000053843502701011098650040578144436011410000643350020070110935699300000444360019200007633650140801116258681007614443600576000077226001607011096291971059244436000270000621852519090111599659310592331360068204487911550181001116424310))))
 (.node 4 (.node 2 (.node 1 (.leaf 9451444360069831658883430231201116026999105921333600799000089646001612011102577581059237436009290000891155018120110944631910592206360078235478671550181401115890399056974443600032000061674502205011102738671059200036006860000812929030121110931394809392444360083500008491350271011109501271105924443600837193788994502212111093486360718144436007190000603235027140110973889400000444360000007933421450220511117397800033744443600000000005134502210011091791040508744436000000000162545022031110890143903343444360000002952020450220511109079496051254443600226000048684302305011102687560512544436008450000656145022050111616779902445444360000000001749450220501117233470)
 (.leaf 2850444360092900006912450220501115942658044594443600617000020425501801011172539410140444436010010000824145022010111021429505643444360080700008916450221201117762151048944443600779000088854502212011175339330512644436000130000595435027080110974882702981444360099300006680500200101116188954024454443600862000065404752101011096059070496244436011410000634250020080111607251100000473360000000007795700120701109473955002384443600601000076666001609011158614101059226636011310000619247521080111617892408686444360000000007718700120801115531853105924443600882307689714302312011153697131059219637105851926900665014050110958209909604444360082817418818450221401117905671))
 (.node 1 (.leaf 10592198360079313168852475211201115977241105920913600819402576265251912011176924871059216136008031436705745022120110924517910592167360035712045080350271211117517294000004513600010000043754502205011093222870000052536000000000325145022051110949235900000459360000700000297450221001109367905002384443600021044518644502205011097417070244544436010450000780245022140111745707603096444360106100007218450220501117595286061124443600148000048124752107011095226850438244436004000000214257517010111559262500238444360065600005864450220111118189185014044443600623000081384502201011163791070523144436006820000876345022120110991719507068444360083600008831550181201109612198)
 (.leaf 6023444360081900008931450221201116169126070204443601033000088994502205011159130310415144436011410000724145022070110951879100000444360083700007409500200701109714368105923753600134000064296751301011097810180720044436001760000617667513100111599970410310444360046730939013650141401116058265105922803600890371889444752101011094836191059208636006270000896460016120110974186810592091360083536338573450221201115990309105920003600714182087104502212011162242071059200036006893113871045022120110959233210592161360076619858665450221201109956778105920003600771118753883102910111173856701059200036008360921885345022101111580693600000626360000200002092450220511109948834)))
 (.node 2 (.node 1 (.leaf 6599444360000000003819450221001109212605051254443600000000036004502205111091690680512544436000690000212645022050110947313505125444360019813051987430230501109063862012184443600000000012745002008011174493580000044436011210000560847521140111580291800000517360066900005884475210101116115836072374443600837000085673902510011100834560702944436006340000871243023120111632635404970444360115900005652330280101110568045105924443600686000064766001601011164472460140444436006890000684470012010110996045104851444360114100007538500200701109907765105923273600689000060776251501011160552381059232736006890000718362515010111573477000420444360068200006077625150101115749456)
 (.leaf 7365444360007200005637675130101116621175100194443600704358087834302312011161555671059244136008281624804047521120111628274010592136360074201048895525191401110239108105923473600917000065055751714011097160691059219836007043841857345022120110920073910592000360070437218528450221201115948658105921613600771104887294302312111163415761059213436000550000616745022141110959065810592000360079904396143450221001116194207087984443600807000061734502210111173297030879844436007790000623445022101111572286710592000360077729408852475211211109655750056964443600055104859584502214011104920620000044436000210000238545022050111002788804397444360011607572208430230511117206677))
 (.node 1 (.leaf 2445444360111500007802430231401109264013012184443600549000032835002005011173329250697044436008070439876345022100111574171300000444360045000003279550180101117108736041214443600682406185284502212011178080621059200036006890000684565014010111614998604797444360091800007261370260101109625236105924443600689000076116001608011096858390140344436004500000505567513010111594801006158444360057600005306650140101116444118105924443600226000059126751301011101673860730844436000000000664970012100111492451610592151410080342188872450221201117580923105921363600634211188655751712011174913971059222036006860000897362515140111602400410592347360079302787760625150501117942434)
 (.leaf 9604444360077101036504600160501110013603105920913600803378587814502212011160448930927144436008360605883645022101111581276110592000360077900006234450221011109761154082894443600807000060714502210111097155780322244436003341166395345022101110962028200000581360000600000172450221001109260397050874443600283027844084502210011093244350309644436008390000311950020050110965176800000444360108206057220450220501109804702041374443600689000024455501801011158462830000044436006640000495347521010111004530506037444360083700008885450221211110382216051264443600413000079694502214011099322750541044436006890000649965014010110974384505125444360087800007971475210101110360777)))))
 (.node 8 (.node 4 (.node 2 (.node 1 (.leaf 3828444360115900007726500200801115758932105924393600689000063086251508011101891250023844436006890000617462515010111634851001403444360068900006004625150101116022394105923273600689000053236251501011163758990592244436002470000500367513010111640833605968444360068900006108625150101115913928102634443600704089687995002012011099966861059209836007771024889455018120111763854410592347360071423507570500201201116084186096044443600803177664756251505011176435071059200036008193748729745022120111780424410592134360080700008147350271011109716705105921673600807000061734502210111175216210944044436008070000883645022101111006588710592000360078202737630450221011115761207)
 (.leaf 8155444360084800006054430231011110369051056114443600293102445053502712011176733970000055336000090000153945022081111541849900000581360001702731288450220511109664078024454443600215000015394102405011094567300508744436000600597199243023051111735565406190444360055800005019430231401117699212051254443600837074387814502214011094318960666444436008350000885150020101111622921800000444360068900006257625150101110161600051254443600836000079925501801011105126460724344436002070000669867513080111580376010592163360084405905118410241201110567711105921633600742334284624302312011104586571059212236006860888853947521120110992416410592347360079930707765550181401116021999))
 (.node 1 (.leaf 10592000360069839657358450221201116019945105921613600807042988364502210111097782571013544436006431684872841024101111015875110592134360076604298832525191011115611050105920003600836026887625251910111097529900883744436007820000755045022101111043722108216444360069800005383330281011116332187000005903600014000022184502208011098220730000059036000600000070745022100110970549705537444360079300008657525191011110253129105923293600000000002444502205111096523220508744436008371935698043023101111733578305125444360080312637341350271011109568729051254443600069000042574502214111093425410619044436001131935481045022140111716792106190444360022600004943430231201117546295)
 (.leaf 1218444360001100003752525190501117718464000004443600283059071524752105011096587940647244436000000429661355018050111576657204202444360040000002339575170101117250858000006264780898088053804752101111181727740458344436008351753883645022121111083162907157444360070900008748430231211117718522080124443600777000088364502212011168617641059244636007710000891645022120111832597400000456360068900006629650141401114827664105924443601065000070593102905011161567870140344436008420000670065014010111017137400238444360063900006526650140101110191896105922543600682192480204502205011166928351059226736006230582832541024120111054831310592163360085610106426450221201116300747)))
 (.node 2 (.node 1 (.leaf 10592156360077107328334475211201116196292105920003600842341361734502212011175174551059200036007092985768745022120111579324210592000360079341157116450221201117476928105920003600689313884384502212011155475681059200036007790732861445022120111577865710135444360062700008728410241011110363642088374443600742000071693702610111161000361046444436007900000601045022101111737824210592018360083500006916330281011116265361055374443600033000039844502210111098442670396344436000000000034545022101111012936205488444360001300003421450221011109711366054884443600004010046484502210111098371530619044436005580000471343023140111632065600000444360076600007828475210501115948051)
 (.leaf 2445444360092300002972500200101115868425105924453600835000088014502210011176557580801244436008350255897645022121111026403500000444360080300006508500200501117854594000004443600916165857503302805011181394880000044436009610000560331029050111604177603828444360069800006395500200501118234721105924443600689000065286251505011101142551059244436006890000601362515050111825186806794444360068900005173450221001115963395077094443600689000066345251905011155836151059214236006891248824145022120111011561610592433360081931977978370261201116286738105924443600719334184484752112011178967621059229336007900872698447521050111775578410592182360074200006884450221201117978618))
 (.node 1 (.leaf 10592000360069839367630450221201117599032100634443600686112486984302310111156135711013544436006690000885345022101111605565410247444360070400998944475211011116115715097344443600742000089736251510111105899680915444436008190000887662515101111046651109440444360071400008879550181011115831015094404443600779000088945501810111161845810936244436007790000878047521101111009489608837444360077900005864450221011110197423105920183600777000051283102910111175105150000060536000170422310345022100111043417605488444360000004224959450221011115884366066674443600704000067674502210111099660750791044436008370000833745022101110981061305125444360036629775019430231001109988142)
 (.leaf 5125444360084900007778430231401110088066000004443600790042249174502205011158856210000044436000220000453645022050111027870200000444360096400003154500200111115853131105924453600835000086144502210111158528480681444436008030000894445022120111096027301035444360083200005895390250501117817859105924443600689000061596251505011104824690692044436006890000626750020080111728135310592077360042309928684430231201110693715105924073600793273279783702612011108331271059244436005281732844847521120111084694110592000360068934435724450221201110366896105920003600779273285284502212011173235990914844436008280562531335027101111021936900000540443028309923255450221011110053545))))
 (.node 4 (.node 2 (.node 1 (.leaf 5691444360070400006881500201011110546216046234443600008009818874502210111096678380462344436000000000613845022101111585743305087444360000000985643450221011109901334077944443600357000057494502210111157945980791044436008240000861643023101111778107205125444360082500008603430231011110218610061904443600849056282424102412011102099860512544436008623063824145022050111791666705975444360000014474744450220501115958771105924443600835009788534502210111106007790843944436009490000672150020120111073957803805444360106000007974575170501116328490041614443600689000060136251505011108225440398144436006693610593839025050111694347303981444360068600006610600160501114391931)
 (.leaf 5125444360068900006576675130501118518695105924443600689000063516251505011164519010574444436007930000657941024050111564725410592077360036609868388410241201110463113105920693600771132851734502212011158513190417644436006892230773145022140111096637000000444360077936416737450221201110179409105920003600704282860714502212011156465170990744436008960414883155018101111081560309907444360079300008739575171011117677681094404443600623000088184502210111103495490914844436008240000706041024101111599759605611444360086500008883430231011110371628056914443600779000066925501810111174502380462344436005050000043245022101111594991305125444360066407158446450221011115893557))
 (.node 1 (.leaf 530430077909786772500201001115976118105920003600771000089545751712011105168420569744436006890000741370012050111078688008625444360083900005739475211201115998151105923893600835131786844302312011178111890512544436007421621841250020140111169232310592419360047722775796475210501117785801089734443600742395559304502212011160357541055044436006210000876139025101111581462908059444360054000006173450221011117384072080594443600698000057244502210111159089220580044436005580000597745022101111058292305488444360000427016138450221011109916253079104443600835000088935751710111108636860619044436008460232872539025120111598907306190444360084600008597390251201110622462)
 (.leaf 5125444360032200004713430230501110539355051254443600000000042964752105011103724450492644436009520231601150020010111788684704975444360079307016329475210501111366771051254443600689083669286251505011106995210094144436006890000570170012050111604280804716444360077105436194475210501110365765064504443600664054375705002005011159981921059244436007660000826241024140111805386910592444360061322077392450220501110607677105924443600605000020565501810011178941891059236736006643057350147521050111781232210592069360068905438407330281201117952393105924443600664151176134502214011159576260875644436007793277838345022121111736541008409444360084833768665450221201115773513)))
 (.node 2 (.node 1 (.leaf 9729444360077705438872450221211110443979101124443600742000090177001210111176767391011244436006860000901170012101111574588410199444360070400009017700121011115824680101064443600613000088724502210111180858570984044436006340000560639025101111052766309148444360063900006119430231011111179605080594443600431000062074502210111174982630805944436004230000740143023101111578167300000580360017600005408450221011110904317054884443600283000064954502210111157722190532344436008350000530045022101111040686507910444360083500005930450221011117777549061904443600069000045774502210011158076550619044436008370543866639025121111784111306190444360082515118761390251001110948097)
 (.leaf 1691444360068608323694525190111110607485105920003600828009486144502210011108715741059200036007710832891645022120111817457803981444360080738167495450220501111689681105924443600803083285684102412011161936701059244436007791595503452519050111109944710592000360083713018528450221201110750610105921803600849383687273702612011107460481059244436007193290831745022120111770152908725444360077915958781450221211114850455098814443600848340688534502212011105637640972944436007821689878145022120111041467410592444360062300009006450221011118175352101124443600689009489926251510111108714071003344436009570000544829030101111577985009907444360057600008872450221011111182156))
 (.node 1 (.leaf 10455444360060100008605390251011118535010098464443600442000089565251910111111594080914844436004420000881845022101111640410809148444360052800007385430231011117784420056914443600585000062584502210111105009750580044436000000000491845022101111566145607910444360083200005864450221011110603656051254443600856040385533902512011109651980512544436008450000879941024120111077224905125444360000000005708500200501110486674105924443600698094954774502210111105916320207344436009690093547350020010111129643610592000069080702288665450221001117944357105920003600807000086654502210011161045601059200036008070000857345022100111108788810592262360087512918711370261201115913476)
 (.leaf 5797444360071903986874525190501111816041105924443600799306463005251905011180742841059200036008360000854843023120111593306110592444360083703985648450221201115806309105924443600844217880404752114011179063751059244436006272710759043023050111095301310592248360063400006856550180501118249703061744443600686266677314502212011177345380962744436007791070894445022121111490545809908444360084834948916450221201110513022097294443600704299588184502212011160259871059244436006230000900045022101111828472810592444360063900009000450221011117992132102974443600623000089885251910111175375780894244436005581492867939025121111615166209846444360052800006704550181011115972576))))))
 (.node 16 (.node 8 (.node 4 (.node 2 (.node 1 (.leaf 10406444360050500008916450221011117905644080594443600341039861804302310111152442040805944436008620000898755018101111634266908059444360082500008763450221011110572230081654443600937039886023702610111155673260825044436001440000817445022101111066946308877444360021500007057450221611115904943072244443600164000046284502210111105853330713844436003340000848045022161111482535307207444360071900006249450221011117674534078114443600832000086144502210111158456620619044436005920000525145022100111774066303554444360082500004408450221001115770671047224443600790039456854752110111109004800879244436008070000698447521100111059003210592000360079900008174450221001117615661)
 (.leaf 10592000360080300008781450221001110989147053134443600682000064215251914011162301490619044436006890000635460016050111640332810592444360000000006802700120501111079634105922753600689068073955002014011180141441001244436007091175856739025120111107630910592282360082405335251450220501117831603105924443600627106173405002014011105440541049944436007770092900045022120111634127209773444360074229618818450221211110687329088774443600232000088014502216111120921590842844436004000000848845022161111099893507207444360030700008513500201611110458807094624443600828000086414502210111109188450815844436008350000695745022101111606771807840444360081900005962430231011110734182))
 (.node 1 (.leaf 5125444360011606806542450220501110929791000004443600882052943195251910111106546481059244436007930000426947521100111757671210592000360083500008781450221001111679654105924443600689066967026251505011112050540496544436007990091569050020050111127853305125444360068906697711575170501115777280105922383600719052974804302314011180893440000044436008350669863641024120111091069110592115360080333008820430231201116212294105924443600742000089685002010111115196110984644436004420000669745022161111027932309846444360029300008602370261011111151709080594443600413000089275501810111189019520805944436005492099891547521101111832323908877444360077100008920700121611112171314)
 (.leaf 6702444360044200008665450221611115648455083124443600413000072354502210111161293940881344436005170000866545022101111091295608018444360083700008614450221011110921649078404443600790000085264102410111177841650619044436007140000533845022101111817996006190444360084902258585390251201111122524051254443600257203674804302312011108249240512544436008530000879941024120111036062805525444360083200003656450220711115908283105920003600669000084164302310011111923521059228936007710526645845022120111185754508170444360063922667292525191401111292239096044443600664290463015002014011161709981059244436006690000647743023140111757097104148444360068218857685500201401116290665)))
 (.node 2 (.node 1 (.leaf 2840444360068914626987525190501115975956035544443600832038677104302314011112494831059234136003220386754239025140111819190609604444360076600007050430231401118342227105920003600828290487634502212011113613731059206336008323792837737026120111792317310592063360082535378438450221201111074753105924443600682000088144102410111109770521059244436007190000861337026101111837992409846444360023200006038370261611118302411098464443600592000087423902510111106252480645544436001130000595845022101111078843406455444360033400008662500201011111010779088774443600232000089314502210111181806170808744436002320000547745022161111578771009201444360044200008573450221011115904996)
 (.leaf 8018444360083500008710450221011117707033043974443600011080656624502205011110391860681744436007930000843845022050111572399905125444360063438878710450221201116300433061904443600782103856905002010111159474740710444436006823901714135027120111836741210592444360064320127621575171401111495473096044443600689079660635751705011160087400490544436006891150373060016050111117420709773444360077133978781450221201117773176104044443600766008990156001610111117273020887744436001860223837250020101111751032209058444360023200008614450221611110812660101864443600366000085284502216111180123370579944436007710000650945022010111286014810592123360083500003316475211001111453961))
 (.node 1 (.leaf 10592000360066900008438450221011116035765105920003600828000085264102410011111369071059216836008362692757445022120111596283910592444360081900006484450221401110874543082484443600714170788795501801011158677951059234136008252863859643023120111592041910592341360084200007934450221201111698571105922383600621064878164302312011114280180691044436007902801863543023120111660889409604444360066400004944500200501115947363099144443600686000070504302304011117275680984644436007770000588837026161111628581709846444360077700008957450220711115743515098464443600771000089897001210111181577040984644436006050000886852519101111820619208059444360017605184801525191011110986146)
 (.leaf 9256444360023200005724450221611116094992096024443600221000081744502216111107515061059227136001130222507845022101111765835810592271360084603768665450221011118091260105922713600825000085973902512111178425020512544436005490000432343023050111798398506754444360079335215564450221201116096533105923383600689000065655002010011183675270645744436006340514831745022101111574811010592000360060100008511430231011111586146105924443600878407978445251914011162328510733044436005170000639339025140111593040710592444360068919238098450221201116072323069394443600782387080434102412011158164310693944436002732525861445022121111222974310592444360076600008479330281611116035038))))
 (.node 4 (.node 2 (.node 1 (.leaf 10592000360074200008948700121011115862908048404443600682279488534502210111118489080862044436006051133888250020101111812226508059444360001700873033450221011111057762105922713600283000047444502210111114047450000048939006391614852845022120111176862005142444360054000003304450220101115884691105921933600837160089314502212011162786821059221936008193402741745022140111605780910592444360068916906704600161401111648016105924443600686394676275002014011179390011059244436007712278693945022140111585865706083444360068941507332500200501111758805105924443600766000088155002007111164300591059200036002470000826329030101111858869908059444360014800002104370261011117431464)
 (.leaf 8064444360000000005178450221011117781350083024443600232000054774502216111110786140952444436004500000846243023161111192037109652444360023200005724450221611111141774096204443600341000055644502216111156607891044344436002320000601045022161111843208104945444360013405104737430231401115790155049454443600055000046624502205011178749990671344436001761600425745022120111177989805672444360096400008123410240401115897329087934443600848000045974752101011160522621059205436008350000540845022101111193177806708444360082810087953475211001111686335105920003600627000079344502210011158719471059262636008031319891352519101111824548210592444360083710088935675131201118087469))
 (.node 1 (.leaf 10592205360083702188448475211201117851581105922193600825190075504502212011181054151059221936008322835755045022120111813434310592444360066425037793500201401111741792105924443600839221370162903012011114806901059244436008583003616745022140111597171505272444360076619706954475210401116579767105923793600601000047444502214011119818711059244436008350218730345022120111154013304263444360083900857210430231201117778405071584443600450000054564302314011113378600817044436006981008790137026121111179079010592444360034131308438450221401111810640105924443600613000084913502716111119362591059244436007420000822631029161111778889510592000052010005068488450221001111906875)
 (.leaf 9148444360001502185387450221011111174143099024443600617000072974502216111120029830965244436001760000593045022161111149380110327444360082400008925575171611115588421102724443600450000087104502216111155243010874944436004500000861445022101111593722110592244360077905065477450221011111624900105922713600148168380404752110111179470260899644436008490000876443023121111579723010592606360044200008710450221011115823191105920003600835000080204502210011181458061059200036006270000893470012100111212469710592000360068902178907625151001118047725105922193600782356776024502212011118699031059236036008280000835743023121111175633306127444360040002177392450221401115731821)))
 (.node 2 (.node 1 (.leaf 10592352360011300842944450220501111696346066174443600517021755593102912111153481861023844436007710000892070012071111857227400000444360029328564997410241001117856273105924353600013008425164502210011112864930806444436000170000340045022160111767179908064444360002500008098450221611111656128080644443600870050183223102916111118276460934444436000110000681345022161111166540009902444360071400005864450221611111789829081714443600836075350294102412111114907100837344436008903859872841024120111856180210592170360068200004827450220101118033658067084443600643000068513102916111112909221059208836008350000881845022100111215361210592219360077724817495450221201111868748)
 (.leaf 10592444360080332887793500201201112083436105922773600837201879094502212011115738391059244436008242189664145022040111633695104969444360085626805662450220401111901988076044443600779000088364502212011162193000676444436006390000620350020120111210285607094444360070900004737430231211117973707105923523600467130476083702612111157006091059244436007140000565233028071111611752010592444360065600008930475211611118812185105924443600870149084253302812111182378250000062636000240000224045022101111144750108064444360030700008504350271611112047137099754443600714000060104502216111116553391005844436005280000861445022161111572777608373444360068931565689430231201112307832))
 (.node 1 (.leaf 6844444360013400003811450220501119009625105924443600000000029444502205011120049021059262636002320215705745022101111225541507826444360050500007660450221611115738729105920723600486000080984502210111117499421059225836006822239771845022120111217398410592444360078239356813450221401118554076081174443600779000089164502212011153448470601444436006560000553043023121111521083009235444360071402154257450221211111938952105923863600450000038114502210011156048351053544436002730000871045022161111587235510160444360077100008780410241011112682063105920003600803378280884102412111116283180806444436000210000198345022101111173361008064444360080700009016575171611112706063)
 (.leaf 8064444360097700007302390251611111833214097534443600771000089826751316111158786630984144436002730000605860016161111181398306814444360047700008219430231001115620808105923723600022200642805002010111158269270000044436001000000412347521121111622396510592000360023200005251450221011115797554105920003600777008188795501810011121336071059207536008321932755045022120111578869710592348360079903377742450221201112438996105923903600858138269394502214011162744300512544436006824189664145022140111895337610592188360081904877885410241211117974737082854443600682000082233902512111155724740923544436007190000330445022100111202956510592352360027300003952450221001112179248)))))
 (.node 8 (.node 4 (.node 2 (.node 1 (.leaf 10592000360082426267888410241011111864575080644443600779000088834302316111125930490806444436007710000904170012161111213943308064444360062700008488450221611111508339097224443600639000085383902516111156483350882844436005850000849565014161111605342010592019360082500007392450221011117946584105921783600664021240825002010011116302381059200036008324120878047521101111565748710592000360083502128781450221001117846001105920003600835033687104502210011119727191059200036008350616871045022120111802651610592404360082832817495450221201115882139105921773600819097975744502212011158688301059225736007141284752345022140111567971708466444360076611848325410240811116138175)
 (.leaf 10592316360065600003952450220801118025884068134443600656000074804302310111120035350991444436005920000463641024101111580472009914444360056702124484410241011118010690032854443600247021233654102410011119108831037744436007710000904170012161111362529210592444360052800008865575170711111568949080644443600144000065094502216111181415890806444436001760000810731029161111280934608455444360024702127700450221611111922059105923723600623021286354302310111119398790686244436005051079533845022120111618340207566444360060502115724450221611116039317081604443600221000067374502207111156665981059244436008351979693945022040111831987508792444360068924105648450221401112689857))
 (.node 1 (.leaf 10592158360069808527057450221211118240824105923243600828007975904302307111130982340681344436006640000788541024071111588714910592387360048602117838450221001112254060105923523600226007972854102410111121052171059235236006170000708035027121111550932910592000360035703349023700120711112715440000005444460341000024474102410111118145800000057536000270852268745022100111191230608064444360002400003803450221611117574537000004443600941170287114102412111165866231059200636008190078395245022101111572174310592178360076600006535475211011115855489105921783600793033373204752110111180011801059200036006980000878145022101111259974310592249360068609666939450221401113326478)
 (.leaf 10592089366045004748241450221211112334059084244443600639060981234102410111119914911059200036005922944850139025071111228066508064444360077100008948700121611116489716080644443600771000089897001216111163589960806444436007710000876370012161111641599008064444360077100008284700121611117757024080644443600771000084727001216111185287800691544436001920000774945022161111194394008455444360002404747246450221011115595079101074443600617000089574502216111184033890000044436007770609340637026120111584481100000444360080722538854430231211112773103081914443600627317870574502212011126538431059227936004770000696645022101111576123810592000360060518264577450221001111969935)))
 (.node 2 (.node 1 (.leaf 10592000360083502088801450221001112584682105922293600824126275504502210011179246491059223136008071353755045022140111226427210592444360068212626997450221401113187742105921383110790116576304502212011162561511059211936007990604598047521081111260952908674444360079312628049410240711115941792065694443600682000082194302312011170026100712144436002730000728541024101111222340009048444360005500778157525190711112360848000006263600000000029574502216111119361370806444436006640000900062515161111835041408064444360077100008980700121611118887690080644443600719000089597001216111178885680806444436008070000894252519161111858278705521444360000000004596450221611112051836)
 (.leaf 8584444360034900008607410241611112213640068144443600828033181234102410111178484390633444436006432295500135027050111548620707898444360022100006167450220711115131973105920003600709000084994752110111155611511059244436006892382711645022140111691349509604444360068200006813450220401112996193105920173600585007634894502212111120978730792144436005920000848741024071111621309807395444360054900002780410241001118286148004204443600623000069313502712111129278800904844436000320000575643023071111243343810377444360084400008958475210711118514149105924443600623000090056751307111161590441059200012008441518771337026071111863331900000626360000000001628450221611112036488))
 (.node 1 (.leaf 8064444360000000001686450221611112138992080644443600742000090047001216111178825610806444436007710000870970012161111577240108064444360077100008959700121611115528824071614443600157060050544302316111158473640661144436000000000368845022100111201377606814444360083918195914390251211115830155000004443600871084089394302312111125781801059244436004673902432343023050111287248209885444360071403308684430231201115723610064544443600431195153384502205011159181521059262036003660718768355018101111598552110592000360056700008836450221011113261913105924443600682083469974502214011130579300439744436008351810566245022040111636615104397444360036600003534410241201112621996)
 (.leaf 10592221360003300003489450221001118294341090484443600656000081893102907111126390750244544436000000206342145022101111203758808064444360000000002063450221611115489532050084443600000000083234502216111180225430639144436002070000868443023161111587892406372444360077900008052250321611112857914071754443600069020683174502216111123865450573444436001340000321045022101111210885906611444360063400008049410241011115987121000004443600882000087114102412111183269880000044436009800000878041024161111576827107534444360077132728174450220811115769180105922733600682071489934502212111186391161059206636002210000650752519071111804674010592066360025700006388525190711115420867))))
 (.node 4 (.node 2 (.node 1 (.leaf 10592444360071418758241450220711112339730105925133600828071488534502210111130235741059218736008350074774245022120111298498910592414360080707146167450220401114434460105923153600682124660104502214011124270251059200036006980000654341024120111295679810592000360070400748498370261211115764851071214443600442007444844102410111179997470725544436007420935591539025121111524495308787444360030700007247370261611112274558105921063600558000086426751307111185153871059210636001642933886852519071111588341500000499360000000001626450221601111867765080644443600366020584624302316111156552410806444436000000000188745022161111217242106894444360000200005991450221611118369043)
 (.leaf 6791444360022100004408450220711115826899105921463600824408781194502210011183232890960444436006820204664145022140111409035610592444360087917932310350271201112939547105924443600709165666414502214011190796560698344436006340000665335027101111244836208787444360030700007500370261011112343589103774443600221000074544102407111125945680000062636000000000231645022160111790174500000444360000000001624450221011115455321080644443600000000015704502216111122458340806444436000000000150245022161111219978308064444360000000001340450221611115672063046134443600017000034894502210011122153240681444436007990000749645022100111581674300000444360077113216115410241211113174707))
 (.node 1 (.leaf 8469444360022100006030525190711112447004105920553600283020282414502210111161478201059200936007791233231043023120111638454308664444360076600007885410241211115725023105920003600617000079344502207111159844070979944436005670000880145022071111315313609625444360065600008458390250711115752326105922213600664000069664102407111126633540877544436005280000470139025101111244465510377444360061709278133600160711116163184105921073600104000044084502207111154435801059200036000030324342345022101111561918806372444360000000001356450221611115451009063724443600014000024104502210111185396521059244436008280705749645022120111557939100000444360022620988836450221201116192719)
 (.leaf 8007444360068613155941410241201116001055105920433600942377889164502212011126466960853644436006343014883645022121111821871008448444360022100004962525190711115734824105920162350221000083174502210111161020501059222636007420702735845022100111853243910592000360083509237520475211001112671798105920093600686406723104502214011133835381059244436006821479729745022140111836530610592093360070438508898475211401115953790105923143600576333889164502214011129780240852644436008960000900645022050111573308210592000360057600006222370261201115967504104924443600669000059503302812011158387171059203336000330000514543023071111250876603784444360000000003086450221611115772871)))
 (.node 2 (.node 1 (.leaf 6814444360000000003620450221001113732978056974443600719070265194302312111188383640000044436008650923885443023121111870326310592303360063912284744450220501113407377075434443600766111980984502210111158526741059200000802320000878145022071111277066510592542360083514728853450221011112941265105924443600669228773764752108011157985451059200036003220000866545022161111593462010592444360028302008743500201611116211990087754443600033000040424302310111126436580887144436003840000841643023161111301805810592339360036634594780500200711112778116000004443600824000028354502207011158276860346044436000000000305145022161111585427206611444360001500006144450221001112806940)
 (.leaf 6814444360085816354651430231201112906255000004443600793208689285251912011157677560000044436007420321607543023120111580916306383444360063941234966370260501115751165105920003600807000037574302307111159643661059242336006823275744745022080111326053310592444360066432347376475210501118375307105920743600819019957133302812111188701390921344436006130320677645022071111577503309995444360082400008684430231611113425550105924443600334000088984752116111133326511059244436003410320820860016161111301330610509444360027300008295390251611115785287105920003600357000083553902516111130209031059200036002320000814735027161111327037110492444360013620755456430230711115763008))
 (.node 1 (.leaf 7693444360014800008557600161611113692154101344443600293000081234102416111128297991059216036000000000650945022101111277847810592111360033400003302390251201115698312000004443600000000022984502216011127106120681444436008240000357445022101111324542406611444360064300006922450221001113015983054964443600714000039053902512011126731981059200036002570000497445022071111292059010592477360078237638872450221211118995450105920003600835195076604502210011184179190960444436005171381231045022050111589436610592444360083616932310450221201116435261074634443600836175959494302312111162923581059244436002150000892755018161111873955709809444360000000002407450221011112710532)
 (.leaf 444360034100003554475211601115534917053574443600000000027044502216111129133010681444436000220000286945022101111586232201199444360006000002739450221001112875027056974443600853000089856001612011136633810000044436008651890880343023120111858583910592444360068232792310450220801113667295096044443600698272486654502205011165632181059230936006822159754545022080111597772810592426360080327598846575170801118863983105920003600592000078384502216111156605851059244436001570000894870012161111617866010592444360045000008851500201611115749894105924443600048000057884502216111159946870878744436001760000546662515161111639347009809444360023200005118410241611118450606)))))))
 (.node 32 (.node 16 (.node 8 (.node 4 (.node 2 (.node 1 (.leaf 9809444360002400005251450220711115799780105920003600016006776134502207111159745080000052436000000000228645022100111287615103416444360000000003984450221001115691471038174443600000000079404502210011154802190119944436000070000342145022050111608332502010444360010400673811450220501113733386042694443600021000058654502212011187282140569744436008710067897460016120111600500505697444360088805498577370261201113044560105920003600221000072255251907111186277781059200036002210435783845022071111571248310592000360022100665173450220711112949307096834443600032019689255751707111159944071059247436007140678885345022101111350616810592000360071415277297450221001115120142)
 (.leaf 10592064360087042077779250321001118396524096044443600844006623104302305011144545410713144436009082715901450020050111632700210592444360014800008885450221611114305162105924443600307000089785002016111165316791059200036002320000841643023161111607849810592444360023200008836450221611113837734056974443600148000040424302307011161638720917144436006430000771337026161111305571509809444360002400008539475211611118388752030804443600000000027694502210111156001150000044836000000000268145022100111828141101199444360000000004109450221001118113743105924743600714054588854502210111135125851059221336006821280231045022080111838624808177444360080707882310430231201116317325))
 (.node 1 (.leaf 10592400360054010888834475210801118615134105924003600540108888155002008011186498230779544436007711521896655018080111881239008745444360063404338438450220711118548606105924443600033000090165751716111165881381059244436000200000902370012161111680351510592000360071406725358410241211116125624105924443600232000086654502216111136335761059214829800550194728541024161111600111809919444360028300005653410241611113373571098094443600232000085734502216111159031310980944436001480000350147521071111840685710592111360082500658697410241201118968648000004443600000000037764502216111183117580510544436000000000541445022101111291250802615444360000000003633450221001115749567)
 (.leaf 3943444360000000003656450221001118501400042694443600870067286684102412011160347730569744436008750194866841024120111376298610548444360022100008611525190711116270449096574443600517000068844502207111139668960960444436007991861876252519080111859573610592444360054932038897500200801116153924088234443600505000081744502207111136260800979344436001700000817445022161111600260610592444360028300008317450221611115890187105924443600144000084994752116111135751281059244436001130000895745022161111903506110592444360003200009007625151611116214056105924443600022000089697001216111169213491059244436001000000896745022161111423395010592444360003200008989700121611114764409)))
 (.node 2 (.node 1 (.leaf 10396444360051700008622550181611113534537105924443600232000085284502216111145494270960444436006270000778150020050111332850605152444360000000006641450221611115942423056104443600000000073634502210111157090120510544436000000000717745022101111360163703817444360000000004086450221001115307181011994443600357000025604302305011157657920998444436002730000871045022071111342005810592623360083627617153370261011118386907105920073600837332172212503210011186567461059222336006822730881845022080111320985910592444360082501928831550180501115938557105924443600100000089154752116111163837121059244436003660000839647521161111585915310592444360054000008763450221611115177406)
 (.leaf 10592444360068200008573450221611115421773103984443600215043082953902516111187200801059244436003070000880047521161111434236910492444360068619218679390250711115813526098174443600486019266773902507111144117990960444436002930000330239025071111849849209171444360022100006677390251611118433289099194443600790000084283702616111158923220980944436000020000811847521161111353680510592000360000305427496450220711118560262105921113600000000043954502210011132494390485744436000000000697345022101111542577902615444360000000635277450221001118442067011994443600828065582624102412011150356480119944436008420063679041024120112016103600000444360087237738890410241201113221001))
 (.node 1 (.leaf 10328444360029300628513500200711113343295079064443600176000039524502207111158995591059200536006890191572445022101111375214408179444360051725868814525190801115486631045364443600835065490366001605011161437230914944436001700000451645022161111877623310592444360023200008885450221611113608549105924443600576000087104502216111159664721059244436002320000876345022161111588208910077444360005700008118475211611118956796095794443600048000071254102416111161538221049244436001480000872455018161111908225609780444360038400008049410241611118599849091714443600442000076083702616111134134420996944436000260000783055018161111602655409809444360013600008152430231611113957864)
 (.leaf 10592444360051713418876410241211119183859042694443600870000087804102412011134769920968244436000690000848845022071111585587407181444360048635439008600160201116480952090384443600549042690156001608011183859120780944436005284121902160016080111423997307832444360050500008283500200711113862711105924443600019000090497001216111187266071059244436003570000854357517161111629783210592444360001900009004700121611119437826105924443600019000090447001216111193613651059244436000190000902870012161111694720910592444360028300008665450221611113960023105924443600232000087634502216111141776631059244436006170000852052519161111420961110492444360019200008708525191611118605434))))
 (.node 4 (.node 2 (.node 1 (.leaf 9233444360061700617300350270711114815613101734443600013000079765002016111188302821059221836008071167893145022120111619906510592218360084523544434390250501116121605046794443600000000028694502210011132540860000058336000000000219245022100111304239204269444360071400004286350270501113493968105920133600828195382823302810011141814880827544436008070000901745022080111549604210592444360002000009023700121611116210159105924443600157000088534502216111143529331059244436000190000904970012161111559226410592444360019200008244550181611119180256105924443600366000085734502216111161145301059244436002150000839647521161111597925610592444360057600008806675131611116607136)
 (.leaf 10592444360022600008994575171611116334790103984443600207000085845501816111189421910860144436001130000759043023071111373559309809444360020700008884475211611114064527105920003600008000067974752107111145305121059244436002320424864037026121111913505904679444360006000003907475211001113638087046794443600000000022294502210011152878700000058336000000000257945022100111320053801199444360082800008325410241201115288997042694443600790000055233702608011140378300976244436004000187533845022071111347421907906444360083604233811450220811114243716105924443600022000081136751316111149175241059244436002260000864960016161111573376810592444360021500008488450221611116018052))
 (.node 1 (.leaf 10592444360034900008476525191611119650399105924443600020000090047001216111143894640840244436000160000586545022161111594752010492444360014800008743500201611114397589096404443600777000084253302816111160168870996944436001340000822339025161111883942910592444360023200008591370261211114494517105922183600856000035273502705011161408060000046836006640000273945022050111338357700000444360027300003263450221001115486982024454443600771000066943102912011139706800244544436008250000706831029120111349631406352444360070900005427310290501115873779105920003600803064586193902510111137367391059201144106890645862041024100111434669010592444360002600006976700121611114747664)
 (.leaf 10592444360044200008853450221611119564530105924443600027000089826751316111156081761048544436002320000848845022161111642386510059444360034109685358410241611115734628099694443600293000084583902516111158951861059244436000250186897557517121111518406010592318360083500003723450220501114440380038174443600015000036274502205011153923240426944436007990000612135027080111437940106701444360066900006306310291201115774559105920003600779041980022703110111138827231032244436001700000681345022161111428689010592444360001900007870700121611115625174105924443600334000088364502216111146628541033044436001040000861862515161111418046310325444360015700008318550181611116387776)))
 (.node 2 (.node 1 (.leaf 10592000360022100008208500201611114077823092604443600186105667125251916111191483681012844436000720000722552519161111493168810592444360033404198779550181611115146831088644443600682000050023502716111142481000900744436002260000606839025161111596606710413444360074200008428370261611113927178104134443600017000088646001616111153572651059244436000200531898462515161111946686710592218360077122928993450221201119480580105921143600000000015704502210011156310100000058336006560000328745022050111347758200000583360028300005251450220201118990341011994443600714000040633502705011142920020244544436007790000810731029120111588150202445444360071400007735310291201115784305)
 (.leaf 5153444360080700003178370260501114219890105804443600026000088994502216111157979791059236836005280000547745022071111860008710592000360083710528665450221011114016220105924443600413000083964752116111144197531059244436001130000826467513161111640222510592444360004800007941675131611114502412105924443600349000089934502216111161282251043144436000190000676570012161111437509010431444360023200008573450221611114968038105924443600100000087576001616111146032191059244436000200000902870012161111526800510492444360002500008374625151611119199546105774443600198000073116501416111146601881057744436001640000873957517161111495965410592444360021500008162390251611115130132))
 (.node 1 (.leaf 10592444360002800009014625151611116358308105924443600019000089846251516111196432681059221836006861543900645022121111899085210592218360079303018976450221201119539729000004633600828000071354502205011193454460000058336000570000209145022050111389678104269444360076600005410350271201116383176075984443600669041653384502208111188919751059236836006130000793445022071111893263510592000360083701838665450220711114190884092514443600907018390385751714011157850141059244436003660000866545022161111596681610330444360029300008463500201611115912706105924443600221000087264752116111146445561059244436000190000847270012161111484655010592444360001900009011700121611115127788)
 (.leaf 10592444360023200008726475211611114638656093674443600686000047183502716111187314941046544436006390000842135027161111575067010059444360034900008869500201611114046643104134443600026000080804302316111143136391002644436000090000713545022161111589066200000444360084200003164450220501118476841105924443600656000028584502205011187004940000055936006230000201541024050111549226401199444360066400553428330280501115737493105922723600682000025234752108111144209781022544436007140000883645022071111593667510592444360059200006813450221611114240590105924443600019000090237001216111153936601059244436000090000763045022161111456844810330444360005700006379625151611114721501)))))
 (.node 8 (.node 4 (.node 2 (.node 1 (.leaf 10330444360036600007844450221611116345990103304443600366000071744502216111192467881059244436001830000900352519161111609342610592444360001900009004700121611118830390105774443600293000075484752116111148261481059244436000320000854357517161111509749510413444360034100008526410241611115964559105922183600824052589864502212011194393991059244436006691802892755018120111592229210592444360083200005744410240201116535202000005593600689000059344102402011160929420119944436006010000277433028120111586598502216444360077700544169350271201116128771042694443600669000054273102905011151350760579844436006860000419033028050111445017110592444360041300008573450221611115882376)
 (.leaf 10592444360001100007687450221611115714714105924443600192000089164502216111145326301059244436001920000898850020161111459013009191444360002200004296475211611114176348105774443600215000059435501816111186136311059244436000600000881360016161111553441410592444360010400008762525191611115663335104584443600011000079344502216111159036891059221836008241041900045022120111921925510592444360084601808978500201201116391030042694443600779000060323502705011150676190426944436007820000620233028080111662681105798444360068200003796310290501118903665076424443600613084388184502212111192919010920544436006430000482745022071111892450510592000360059201796776450220711114716534))
 (.node 1 (.leaf 10592444360044200007742450221611115116691105924443600027000076304502216111166676721033044436001640000654245022161111903803810431444360022600007180550181611116533289105924443600048000090186751316111145055611057744436002320000608655018161111400463010592444360017600008684430231611115315942105924443600024063288456501416111151506401042044436001160000853839025161111602132610442444360006900008511430231611115989120099464443600000000077314502216111160856131059244436002320411898747521121111616570510592000360057600007769450221211114577836105922183600771005263275002012111195096831059221836007820052901245022120111563202610592218360081904118976450221201119410497)
 (.leaf 10592218360079307369001475211201116365909042244443600623000051863302808011149895540422444436006820000390831029050111608727202808444360080300005222370260501114906355105920001510686000038173702608011161982351059244436003660000891645022161111490029210592444360001300007844450221611115130033105924443600307000079864502216111194456561033044436003660000693945022161111580321210592444360001900009028700121611116290543105924443600064000090486751316111185445771059244436000190000900470012161111441730209191444360010400004123475211611118877138105774443600183000062945751716111188073441057744436002830000730755018161111897733910592218360071900005930450221211115842949)))
 (.node 2 (.node 1 (.leaf 1199444360063926283781350270501115957484093284443600617029383174502207111142652711004444436005580000802045022071111577239209855444360083600008526410241011114745230105924443600283000089674502216111159603381059244436000080000665245022161111888494910592444360001300006678450221611116078376105924443600019000090117001216111149047821059244436003660000711645022161111907815010592444360023200008974600161611114633422105924443600183000087625251916111157464141059221836007140000657327031120111591427510592218360069801767206390251201114413885042244443600682017668483102908011152108701059237336002570000471835027020111618258706763444360085302928930475211211115967053)
 (.leaf 9467444360083700008252370261011114935715105924443600001000062704502216111151957721059244436000140000668252519161111943656210592444360014800008074550181611114030662105924443600341000090205251916111161890851059244436003660000901745022161111914902310592444360001800007687450221611114151869104314443600366000070856751316111198398961059244436000190000904970012161111583682710592444360022600008227625151611116132598105924443600232000085576001616111155336811059200036000320175813750020161111460195810140444360001000005664475211611116164739105924443600226000076134502216111148588041059221836007140049513527031121111878007010592218360071400004987270311201115842220))
 (.node 1 (.leaf 10592218360071401756830290301201115895925105922183600704017573093702612011147318951059221836002830000857262515120111919515408482444360086707318864410241201119810945084824443600885000083834502208011160289930496144436006170000363735027050111589981210592425360001500004422350270801119367071042244443600033000042673502702011195613970199344436007710000563235027080111612386210592373360014800006222370260801115395586063214443600704000060623702608011140564451059244436002320000894445022161111891181610592444360032200007988475211611116178914105924443600148000090165501816111198290671059244436000110000645845022161111416783810592444360023200007650600161611116363450)
 (.leaf 10592444360034900007307550181611119044956105922553600273290178346501412011187107741059244436006860174899345022120111675089210592444360092300003836410240201115777867047934443600682000053393902502011147076350422444436005670623571333028080111889681809452444360094200003501475210811114444671105924443600221000080525251916111147461651059244436004000000627045022161111895359910592444360010400008383450221611115753930105924443600232000071576001616111151339751059244436002320000893860016161111480329910045444360023200008953600161611115799064101794443600170000052514502210111158502281059244436001000000894252519161111525423810231444360033400008130700121611115134719))))
 (.node 4 (.node 2 (.node 1 (.leaf 10201444360093900008864410241611114763498105920153600824332288994502212111195524581059201036007040000576137026121111929986910592444360077100008650410240801119214674041314443600517000039523302805011188507530355444436004860000724737026020111500290709387444360006000007496450220711115880145094014443600870050986974102412011151938571059244436004000000900952519161111571114610592444360001700006327500201611115996069105924443600357000090245002016111156873961059244436000110000605860016161111588937710592444360019800009000625151611119738171103144443600183000057945501816111162337041059244436000250000688855018161111587767210592165360071401725590270310801115899709)
 (.leaf 10592117360006400006954475210801116236738105924443600341000088364502212011146892391059244436006820000446339025080111590979106962444360083200009033525191211115602157105924443600000000066524502216111157269051059244436000550000803265014161111581172410592444360001900009052700121611118934498105924443600307000090415751716111160215611059244436004000000663045022161111425669110592444360028300007523450221611118756238105924443600000000047495751716111160804611059244436002320000904460016161111629987610592000360002700004962525191611118710188105924443600055000056575501816111198576981012344436007990000702655018161112051181210592034295022600458089600161201116003659))
 (.node 1 (.leaf 10592444360020702868853450221201115013260105924443600849000085293302812011167015190274544436008970000575643023020111611336605376444360068200004217430230201116183701105924253600033000067663902508011196434610991444436009350000295847521081111464875509914444360096800003540550180811116293348081704443600016016967764502208011157689431059244436005760000902760016161111581599110592444360025700009033525191611119057631105924443600400000077694502216111152235131059244436000180000614345022161111572039710592444360000000006426450221611115697208105924443600366000075504502216111194222921059244436003660000741745022161111643126310592444360018300009047625151611119060186)
 (.leaf 10592444360002800009044700121611116183113105924443600164000090366251516111196857261059244436000220000561250020161111591604710592444360013600009003525191611115204635102994443600232000085955751716111159699321059204636003840169686533028120111905515710592125360028300448294525191201114859921105924443600879000086423502705011152567970965844436008790000864235027020111679129109914444360035700003589430230811115320712081704443600777000026154502208111153825761035544436001440000882539025141111607517810592444360040000009038575171611119417190105924443600400000090174502216111150650871059244436003660000760245022161111587193710592444360023200008700600161611119529958)))
 (.node 2 (.node 1 (.leaf 10592444360022100009040625151611116033304105924443600028000054645251916111154685141059244436000570000901655018161111525333910592444360023200008974600161611115899103105921253600442000073764752112011159541640469744436006270000506037026020111472656001640444360068200003359390250201114867194099144443600709000049704302308111159387030991444436008821330572445022121111600132110592444360001900009051700121611119245559105924443600019000090527001216111156723461059244436000190000905270012161111931526410592444360001900009052700121611116109177105924443600021000090527001216111155676421059244436004000000901745022161111590322310592444360001800006399450221611118669395)
 (.leaf 10592444360028300007742450221611114777201105924443600366000090174502216111159531751059244436003660000749545022161111591250310592444360051700009034675131611115887602097254443600215000068844502216111157204581059244436002210000894057517161111615624110123444360079900007478550181611115414972105924443600232000088325251916111159253271059203036008190282519931029121111580962805446444360068205036348410240801116068528054464443600682000063223902508011158903380435644436006820000377839025020111911463105993444360085313307174350271201116297463099144443600824081649844502212111152318251059244436002260000596457517161111593525710592444360019200008994475211611116318864))
 (.node 1 (.leaf 10592444360000000006583450221611115976381105924443600257000071515002016111200032861059244436002210000900762515161111506562610592000360023200007404600161611115564673105924443600032000090246751316111160775961059207136007900166657327031120111908276204462444360083700008534370261201116492546079544443600779000086423502702111159860621059244436000190000904970012161111943718210592444360001900009052700121611116116292105920003600450000067215002016111159672821059244436002320000887760016161111940226310592000360023200006976600161611115483557105924443600027004048815251916111158834861016644436005280000757765014161111709654210592444360023200008968500201611115661792)
 (.leaf 10592287360077710814797290301211118844658105920503600704000050463102912011190609661059207136006980000633335027120111546309504356444360066400005973450220201115192621099404443600870099549744502208111188148920847844436007820000863339025021111638600807753444360060100008905410240201115825176084294443600686003981623902514011161949061059244436000690000803265014161111571848210592444360001900009052700121611116079924105924443600148000090385751716111159377751059244436000190000904970012161111927766510592444360000000006997450221611116068214105924443600000000077424502216111160993781059244436000000000824145022161111621308310592000360023200007174450221611114647239))))))
 (.node 16 (.node 8 (.node 4 (.node 2 (.node 1 (.leaf 10592444360000500006221500201611115966118105924443600192000081136751316111157608831059244436006890000841970012161111511786810592444360068900009049700121611116191596105922143600021000064264502208011154223530165044436007040000826241024080111626205206226444360093500006144450220811114984054105920003600366000064844502216111154469411059244436003660000901745022161111601723210592444360029300009028500201611116040583105924443600232000090516751316111159157131059244436002570000781557517161111563471910592444360000000008853450221611116025015105924443600013000085276251516111194020161059200036002320000875760016161111538763210166444360020700008078625151611119728813)
 (.leaf 10592132360060100006905575170801116225402045384443600704000064044302302011158461270622644436004770000340637026081111934088605022444360066400008872450221401116115634090804443600686000087093902514011158964550745344436005920000849837026020111497680310592444360001900009051700121611120169282105920003600293000090124502216111161007051059244436000040000903960016161111635371310592444360000800007263575171611115713133103674443600144000071744502216111191007321059244436002320000815562515161111612315410166444360033400008637575171611115906927105925163600714038749262703112111156569631059222238707040602728439025120111586896208652444360058500008940575171201116567339))
 (.node 1 (.leaf 9914444360070916686718430230801115807321031084443600828000083574302314011163010011023744436007420000893145022140111971844204919444360098200368952430230201116060252105924443600617000081087001216111166927431059244436001360000818470012161111645105210592444360000000009034550181611116361709105924443600011000090436501416111201270451059244436000000000673745022161111969420810592444360015700008655700121611114949526105924443600605000082047001216111147285631058244436002320000793445022161111587117810592444360076613915137290301211118887845105920003600682038569383702612111150645071059200036006210000608443023080111579759510592000360063901606811430230801115998557)
 (.leaf 7181444360063900006790410240801115562418059414443600639003680494102414011162801791059244436001700000903455018161111610401310592444360019800007909600161611115697062105924443600617000081847001216111162674061059244436006170000814870012161111999128210592000360002700008958475211611115959863105924443600020000090406251516111159282631059244436000250000905170012161111538499710592444360001900009052700121611116192575105924443600005000090415751716111159882111059244436000030000799152519161111555328710592444360061700008948700121611115721972105924443600136000077537001216111183530090628244436008701384719533028080111611786100000000360017000008997700121611115703728)))
 (.node 2 (.node 1 (.leaf 10592000360002100009045625151611115463735105924443600341000090496501416111159010271059244436000080000901655018161111616298800000444360078208945241290301211115433728105921793600790000054163702614011160069431059200025508320000533845022141111572390310592181360057600007353390251401115852362043974443600714000085964302302011164370630439744436008580000861939025140112043116710592626360052801568978500201611116055174105920003600015000066675751710111161439941059244436000140000810962515101111990820210592444360061700009051700121611115773039105926263600021000080556251516111152958011059244436001000000904267513161111941989110592444360063400009044700121611116458794)
 (.leaf 10592444360001900009051675131611115853960105924443600013000090006251516111192197351059200036005850000896557517161111607587609791444360023200007693525191611115290062103124443600917000087423902512011158269511059223436006640892687541024140111602406410592154360088504868748430231401115274404042004443600634123484384502202011161875170576244436006340270723545022020111650754904366444360084600006737450220201115955370105921373600104000090426751310111159314411059244436000210000905270012161111989832810592444360032200008966550181611115706229105924443600020000056355251916111151075460902744436002320000508339025161111587720108889444360001300004442500200711115468457))
 (.node 1 (.leaf 9433444360016400008688575171611115885757070654443600639000080204502214011166675861059244436000270000895162515071111535526710592626360064300007718450221011119269982105924443600021000086676251516111194249021059244436002070000897655018161111596755310592444360060500005249550181611115972920094334443600215000085435751716111194910911059226026508650000871141024140111518337906155444360083600003940410240801119521100060584443600592000080804302302011157783301059244436006890000903755018101111598823410592000360052800007433550181011115524361000006263600592000079096001616111158566941059211836005050000860870012101111575963510592444360013600008925575171011116008289)
 (.leaf 10592000360057600006289550181611115881809105920003600576000085325501816111162384580960444436004500000886460016161111575180508997444360044200004559410240711115231818105925673600698026754383502712111157687580853444436005920000567939025121111527615704156444360079300007997430230201120068384052694443600656000061444502202011197993491059244436005760000893665014141111577135110472444360055800007709600161011115515058105921183600021000085617001214111192095671059244436000600000900160016161111590956510592444360018300008724550181011115931324105920003600055000056484502210111157022901059249836007040000544733028121111577746210592097360019800006826450220801119422183))))
 (.node 4 (.node 2 (.node 1 (.leaf 3645444360083509735545430230801115960236105920003600643000065724752114111159957941059200036000210884853765014141111585251410592444360006000008891625151411116227666105924443600100000087006001610111161058541003244436001360000869667513161111599695810592096360080700005477370260901115622622093234443600567000074804302316111158814820932344436000330000482237026161111946114909203444360006900008482625151611115563623105714443600872069087423902514011162511860415644436008070000837737026080111585129706685444360054000008836450220201119735415105920003600627000075234502209011154553381059200006006340000673745022090111930658610592000360061702648876410241011115999064)
 (.leaf 10592184360062706896454525191011115532224076714443600766000060645251910111149484471059200036002320000655957517141111890363610592118360029300008865575171411115810823105924443600307000090215501810111195166711059244436001980000864960016101111616843810592000360005500005477450221011115746744099994443600207000064156251510111160419691047144436000600000870970012101111616915610592096360082400005159350270901115865408088414443600858297585293302814011154696830884144436006640000867847521020111599965004156444360070900008748430230801115780148094174443600442000085964302309011165478181059200036006270000675547521090111586354610592361360002400008977525191411115585019))
 (.node 1 (.leaf 10592444360006000008877600161411115945741105926253600431000087804752110111157287891041444436000600000749570012101111626972309604444360034105837235450221011115583501105926263600799000082683102909111197107551059209636006050000242741024141111541432909709444360024711366975390251411115604725098484443600450000086074102414011167048661059207636006050000756447521090111640163606814444360091700007844450221411115771060105925282440719000074615002014111161534781059211836001000000902160016141111557456710592056360003300009019650141411119477446105924443600026000088344752114111197235031059210836005490000739550020101111584664410592000360078200005467330280911120242341)
 (.leaf 10592000360079000005820330281211115757604105920422510682202755243902514111155730241059232623403070000683541024141111930693104672444360065600006068390250201116836366105920000680605000063304302309011156170841059244436005670000623843023090111544434410592118360054900006507525191401115468027105921093600799077958636251512111155471451059225636000550146887760016121111573103410592444360006013638913525191411119891871105925093600627000083593102910111161470001059210836000600000900470012101111609941910592204360077100007435390251401115479885105920353600144000069394502209011194147621059202230103660000760245022090111601584010592000360071400006789430230901119680552)))
 (.node 2 (.node 1 (.leaf 10592000360045000005455430231411119152055105920533600664000058883702614111158645281059251836005760000878145022091111598685710592108360000200007252475211011119807923105921083600027136189356751310111197950891059210836000600000900470012141111630899510592444360059210479012450221201115828134084674443600627014572024302302011158509010876944436008240144705433028141111580425009664444360023200008604350270801116352924105920263600366000062984502209011194508641059214536003660000789147521141111572253310592053360041300227836625150901119471846078964443600442000083665002014111196502001059228636008900000699955018120111900722808170444360048600008949675131211115352263)
 (.leaf 9460444360056700008763410241411116081827105921763600021000089856001614111158971801059210836000210000904562515141111965282709649444360001100004748370260711116148214105784443600558000083705251908111150464110000062649904500000811455018080111592515610592026360055808746426450220901115546699105920003600567000067374502209011157175021059228636005850000692752519140111547390410592509360063900008809390250901119617595105921763600824000090305501809111160307091059210836008620000860539025091111620346810592108360048600008944450220911119653332105334443600567000082414502216111158164380971644436008960000858233028020111664188210592000360066400007737550180901115527548))
 (.node 1 (.leaf 10592000360001800006364450221411115614304105924853600832000086974102409011196759850960444436007930000862835027091111595717009604444360063400008392330280901115959362062974443600867000085543302802011160844860971644436008480000874437026020111703487209496444360034100007598500200801120003890105926263600825000085953502712111159186231059244436006690000880047521071111575270010592444360035700008573450221611115917424105924443600307000082414502216111159588511059244436002320000838345022161111577925808540444360063901398392330280901116083002035544443600898000086853702614011158065221059200036006690000789155018080111939898810592000360048600007630450220801115463460)
 (.leaf 8170444360021500006388525190901115772432105920001830664000084635002009011158364101059210836005920000738837026090111933823510592000360089700005653330280801115893769105921622380226000049213902510111158133540355444436008480000865535027090111652424004415444360100100008809390250201115459180083504443600400000084635002002011156045530686844436006130000717445022020111964328110592000360068600007547500200801115959428105920001110766000078195251908011158691541059200036005050000763045022080111555161610592108360059200007348370260901115754356105925923600558000085673902509111158169161059200036007140000843931029101111602812310592000360091900005820330280901115874064)))))
 (.node 8 (.node 4 (.node 2 (.node 1 (.leaf 3554444360089800008711370260901116372987035544443600664000074474502210011195468040730544436005760000887857517020111591784507384444360063400007523450220201119613261105920003600669001676845251908011192362331059207836006430000738543023140111608617010592000360022600007490525190901115709638105920003600790000079515501809011155356661059210436004770000901655018081111591958010592000360028300008957500200801119041767105920003600714000082683102909011159410540834844436006860000531435027140111928881210592000360062100007271390251001119064485105920003600799000083254102407111155442071059200036007770000876345022071111584508510592444360023200008869500200711115750712)
 (.leaf 3554444360091700008554330280901116329502035544443600844000089204102410011161508400355444436004670000667541024090111611402410592201360060500007207500200201116105118105924443600704120382584502214011158953890569744436008700250790960016140111574165308170444360058500007151500200801115818404105921083600467000079474502209011194633671059200036007140000693031029090111589653107613444360077700008192410241401116045697051434443600592000083553902502011165176920960444436006130000257235027100111533533403554444360094400008809390250901115891608049374443600366000068713902502011158900210579044436006340000782050020020111604545107403444360055800007626525190201119647828))
 (.node 1 (.leaf 9166444360051700008364550180201115702827105920283600467000076604502208011191468201059200036004670000839750020080111553318510592000360046700008257475210801116010845105921083600540000070604102409011198791361059200036006010000793535027061111569141910592444360023200008988500200711119785986105924443600232000089524302316111159812900355444436006890000869937026090111606174605970444360044200007270350270201119717677105923353600682000077925251902011154022430969844436006860000899447521020111684487409105444360054000007769450220201116049440105921083600467000076874502209011157053061059210836004670000763045022090111974727610592108360054900007116450220901115905885)
 (.leaf 10592626360084800008709390251011115856441035544443600528000084773502710011198074510661044436006560000892041024020111633396909823444360050500007768475210201116406327078964443600613000073705501802011159627380681444436006430000731047521020111595363810592444360062100007297450220201118912830105920582940467000082125251908011158542551059200036002830000793255018080111608909510592126360040000008366500200801119813621105926263600803000084773502710111159834261059200036004500000781643023101111579175404234444360066401337685430231401116335705035544443600467000085913702610011160374930355444436004860000693945022020111600996500000444360046700005859350270201115770327)))
 (.node 2 (.node 1 (.leaf 6930444360046700006939450220201119668625076084443600413000090335251902011164745940435544436005400000895243023020111622589907126444360040000007520410240201116377469056384443600617000066992903002011165343510696844436002070000810860016020111653093410592261360046700007057450220801115856572105924443600549000075744502202011157114041059229736000330000855760016080111545552310592000360043100007769450220201115553901105922523600467000084294502208011158910641059210836004670000699745022090111580599510592626360080700008528350271011116063427105920003600247000054084502210111158429391059244436002320000898850020071111959248904255444360090800118763410240201115923770)
 (.leaf 4818444360077100008123410240201120135753069304443600467000069494302302011193543000743744436002210000766045022020111612524807397444360061300008092625150201115927352105921243600021000088926001608011189533981059210233102150000815652519080111970283709929444360074200008783430231411115898007084064443600617000058644502210111155952680601044436005490000770733028020111705713803554444360056700008778390251001119698335035544443600567000084283702610011162170890782744436004770000720037026080111559511810592000360046700007059310290201115734711105920003600467000076733102908011157195100501944436006891675675841024020112056040602442444360106500098818450220201117292815))
 (.node 1 (.leaf 5125444360024700084744450221401115905571056974443600134000067243902502011195944400277044436006820000760443023020111637784206535444360058500007133370260201115790549065354443600558000069163302802011156624670681444436004861109711645022020111597791509340444360077900005564450220711115769143105924443600232000084373502706111157959750335944436009960000880939025020111679881503018444360057600006049430231401119602021087934443600366000072524752110011160906431059244436004670000692729030020111563601010592410360046700008298450220201119482021047204443600477000087423902508011159600570472044436004770000865337026020111571854504720444360046700007595330280201116152850)
 (.leaf 10592000360046700006945310290201115472786105920003600467000053453102908011192562890960444436000160000719047521090111583091410592444360080300008665450220711119076140105923023600771000088144102407111163382370571744436006980000887641024020111549600603926444360066400007030430230201116131896035344443600682000079383902502011161930440355444436005490000869937026020111636467508793444360047700007344410240201115970066027704443600467000069823102902011158515220743744436004670000717533028020111599506606815444360046700008063410240201116218873083484443600623000080984502216111194865990499144436009531336898143023020111507289903946444360068200008636410240201119776166))))
 (.node 4 (.node 2 (.node 1 (.leaf 3554444360048600008591370260201120506446035544443600486000076753502702011163938700000044436004230000720037026020111605162400000444360089800007193330280201116061877035544443600505000071164102402011159632630693544436004670000755045022020111617865004720444360046700006964310290201116065228105920003600643000071344752109011157084740834844436006210000466245022071111594574310592444360023200008885450220711115893374050814443600704000088464102402011172261320206244436010391030890541024020111655993405318444360064300007285410240201115727351058614443600423000587814502202011162583100401644436009550000867037026020111633652403597444360089700008633390250201120496463)
 (.leaf 7163444360051700007297450220201116247129047204443600558000090174502202011157854951059244436004420000607145022071111595697510592444360032200008885450220711119512829105924443600528000086333902510111157409230195744436009820000874239025020111606956000697444360046700008679390250201116299391006974443600467000071484302302011200076280140344436004860000896745022020111615251404575444360047700007609390250201115825818096044443600341000074174502202011161533261059233236004670000702331029020111625391710592079360046700007421430230201115726033047204443600878000089674502202011196036910472044436004670000609431029020111596882110592444360068200008939430231411116069600))
 (.node 1 (.leaf 5763444360064300007278270310201115777873006974443600486000089304752102011198896360578344436004860000899345022020111635874310592051360046700007024330280201115909012105923223600467000069453102902011156827921059232336004770000744341024020111600396600000484360093400009038575170201116191778047204443600467000074423102902011163206620472044436004670000732431029020111592361710592444360048600005408450220711119665894004444443601135000090174502202011164307180521344436010280000891645022020112079274305533444360068200007542390250201116883798000004443600643000089574502202011197894790069744436004860000803645022020111982416209604444360048600007971475210201116083394)
 (.leaf 8793444360047700007074350270201115765084070874443600450140789665501802011151113720472044436007090000902655018020111600421404720444360058500008986450220201115833090047204443600664000090124502202011193224000140344436004670000867939025020111590733103309444360068900007601475211401118776194044194443600709000089444502202011159326450553344436009470000886441024020111605061200000444360061300008699370260201116285034096044443600686000089204102402011201954190754144436004670000667331029020111948023510592000360046700006872310290201118977725096044443600486000057554302314011157684950330944436002320000792845022020111573991210369444360029300005788450221411115978516)))
 (.node 2 (.node 1 (.leaf 10592444360036600009017450221411119152245052134443600198094088955251902011201021820000044436004770000862835027020111603711209604444360054000007621410240201116067726072874443600477000072813502702011160696720879344436004670000700633028020111631863710592000360046700006808310290201115887827105920483600585000075744502202011161248470244544436008030000892755018020111943607304720444360092100009025525190201115805864014034443600467000068302903002011160384370330944436006130000782045022140111615688010592444360025700009023475211411115780180043524443600656034480634102402011195857570522144436006170000726443023020111668372100000444360048600008655350270201119779824)
 (.leaf 2445444360048600009018475210201120091902047204443600486000089864502202011158182220472044436004860000904567513020111901881004720444360048600009042675130201115411008045984443600567000089444502202011200430990457444436007140000734441024020111659225807564444360084400008424310291201116141676000005623600400000081623902502011197293370000044436004860000874239025020111977638709604444360074200009017450220201116687755084394443600486000072813502702011158017120569744436006130000893943023020111919912308242444360085300008981430230201116397829079474443600621000090004502202011156010431059200036005490000741745022020111641823210592048360042300007572475210201116182880))
 (.node 1 (.leaf 4720444360084500009003550180201115953223047204443600486000090436251502011155966770472044436004860000905067513020111879806903309444360062300006948410240901115757138103694443600283000089934502210111160293400616244436007140856892041024020111801958409604444360054000008920410240201119871475062814443600682000089764502202011157858130714844436005490000898645022020112024884704720444360048600009051675130201119543068033094443600357000071164102414111157728560838344436001000000531943023101111618182009528444360019200005530430231011116083955103694443600283000088144102407111159777900697344436006980000900250020020111621230505018444360058500009046650140201115905065)
 (.leaf 5359444360093000008939430230201116157739028814443601097000088854502202011164086950000044436005580000884039025020111606778807148444360055800009023475210201115863516071484443600505000089814302302011157753600140344436004670006626633028020111622977910592073360079902405059330281401116345688064204443600549000047804102408011158799020330944436004860000688445022141111545882210592444360059200009003550181411116389042056324443600698000088464102402011160561110618144436004770000901462515020111586079208054444360036608579014625150201116008695000004753600192000079383902502011159477580000044436007090000901745022020111626675006281444360048600008695390250201115842847))))))))
 (.node 64 (.node 32 (.node 16 (.node 8 (.node 4 (.node 2 (.node 1 (.leaf 10592174360048600008803430230201115795985105920001150477000089885251909011161055320959344436006270128736441024091111598886110592444360054900007282430230201116090897047204443600486000089496751302011150931920128544436009490000640443023020111639436100000562360048600008728410240201116706226000004443600486000090234752102011164175830000044436004860000902347521020111593458710592153360048600009012450220201115908375105920003600021035083495501809011159406670140344436005760000611135027020111601409308761444360042300005653410241011116105705059034443600592000072453902514011166224870490944436006820000785339025020111612547001285444360090100007934450220201120419657)
 (.leaf 3224444360077900008428370260201116199426000004443600486000089204102402011157935050000044436004860000901347521020111588196700000444360063400009017450220201115898420056974443600819000089314502202011198110270569744436005170000895847521020111609579510592000360048600007420370260201116011280105920003600486000088364502209011156322420527344436004770000745441024140111637504610592444360048600009018675131401115107248105920733600803000076083702608011159327601059207336003490000787252519081111587531610592000360062100005054430231011115943051099684443600247000079644502214111163601571059244436009780000901847521140111666373307941444360018602448684430230711115927214))
 (.node 1 (.leaf 5697444360048600008994475210201116060784095614443600605001089746001609111158677951059244436004860000902467513020111878368110592073360032200008913525190801115622995105926043600467000079325251908011157716440846244436005850000848845022091111945461501232444360061700007967410240201116410382004204443600486000087443702602011159031490000044436004860000900747521020111589122510592000360061700008783430230901115422184105920003600423000088724502209011195115401059200036000060000827555018090111954985010592495174068200005908370260911115916352046224443600627000042574502202011157811470345244436008420000853839025020112056271710065444360001700009030650141611115930661)
 (.leaf 5125444360048600008876410240201119216116002384443600486000084913502702011195452230166044436004860000901745022020111953399710592144360046700006832310290201115894499097854443600307000085555002008011157037781059244436002260000739757517080111548378105678444360055800008528350270201116554291000004443600486000090134752102011197663820244544436004860000900147521020111639102005697444360048600007594410240201115815063105920003600025000085035751708011158716340843944436005920000594141024091111600377210592444360014400008443550180801119460202105920733600517000077684752108011159600450774144436005670000535741024091111572611403959444360048600009017450220201115877396)))
 (.node 2 (.node 1 (.leaf 444360048600009007475210201119617680000004443600486000090014752102011159709250244544436004860000894447521020111681863509604444360046700006851310290201119280712105925733600601000054773702609111155886490987844436004670000785743023080111583437610592444360014400007985625150801115707543105922123600517000053564752109111154879940826144436007790000586545022090111578787905420444360098400008962430230201116337047046224443600803000087113702602011206762530476144436002470000708035027020111985108408795444360017000008694500201611115246036068154443600486000086283502702011196181660000044436004860000900747521020111625807306190444360002700008431600160201116086523)
 (.leaf 501360024700007908410240201119709434096044443600467000068083102902011194959361059244436004670000688931029020111583059110592281360042300006798330280201116132810105926033600028013677145251909111194545230959044436005280000772841024080111962000504720444360048600158990675130801115547792086074443600307000057394752109011157991681059244436007090867826831029120111930283203703444360083700008016390250201116679818032344443600486000086423502702011193582380455344436004860000902347521020111572307110592281360018600007495450220201116043609105920803600400000082125251909011195519341059200014601480000759960016090111541847810592444360066401375858410241411115984721))
 (.node 1 (.leaf 10592444360017000008877600160801115497365105924443600144000083746251508011156578521059218936004770000604943023080111569297810592444360046700005510310290801115613237058444443600567000086023702602011204412371059203214302470000542141024091111584620809891444360052800006990370261401116314412093584443600207000058555251908111160070161059244436004770000623641024080111563149610592073360061303607885410240801115843142105920733600207000076504102408011149069961059221236006230000566447521091111594793902858444360107600008981430230201116326972075214443600013000027214502207111153241740000047536000000000586545022101111529161405226444360050500008905410240201116003832)
 (.leaf 2445444360068200008840390250201116207372061904443600505000079233902502011156714841059229636006010000742041024020111580708810592155360022100008211550180901115477042105925233600283000063634752109111157200420964344436004860000885345022081111585185510592444360014400008482625150801115694263061904443600682000079524102408011195737151033844436005280000874843023090111586989200000562360051700005686350270201119461747000004443600782000076463902502011174187110323444436005400000895750020020111598153902445444360048600007263350270201116454249087464443600349000068344752108011158451671059244436006640000837052519080111579489210592189360019800008338575170801115254893))))
 (.node 4 (.node 2 (.node 1 (.leaf 10592189360027300008338575170801115626011105921893600450000078305501808011153487831059207336005400000711547521080111560249510592052360045000008604600160901116138113040344443600486000088994502202011203297290403444436004860000872539025020112025982704985444360074200008728410240201115823196105920003600116000082296001609011188453081059255436002730000535741024091111574898010592444360044200008062500200801115729946105921893600467000056993102908011153283311059207336004860000800965014080111547692310218444360020700007116450220901119243762054544443600613000086953902502011197082940749544436003410000780037026020111987057908792444360062100008852475210201115977616)
 (.leaf 3229444360003300008105625150901115773720105925543600055000061194302309111157845960913844436004310000867847521081111573012510592073360059200008097330280811115887878105920733600592000075484752108111155034981059200036001480000754741024090111566876405836444360066900008633390250201119540789080124443600627000075893502702011160337201059200019906820000700041024090111954705308324444360062700005455430230811115792636087464443600477000088534502208011193815681059207336004310681625335027080111909128810592081360010400008743500200901115740094000004443600247000044633902502011159953600355444436006820000858539025020111595413308792444360062100008871430230201118985306))
 (.node 1 (.leaf 4397444360054000008541330281001116010571043974443600540000085843502709011161577901059223336003070000882043023090111577812607152444360063900008763450220911115627620105921893600450000084826251508011156004190923444436006390000870939025020111987754403554444360068900008864410240201119664554102064443600623000077405002002011194659011059244436006130000798739025090111940963208792444360063400008872450220201115058765105924053600467000076584752109011193715391059200011606820000573837026091111581212910592038360061302608993600160801115591435096694443600400000073054102408011156448720000044436000040879713545022101111919773609234444360084200008516350270201116127128)
 (.leaf 10592399360046700007488350270201119289444087924443600621000089524302302011157539701059208337404230000762947521090111590158310592237360006000008584550180901115805458105924443600207000053574102409111195603520676144436005170000730345022081111581527008746444360030700008228525190801115801926105920383600870000089846251510011157553121059244436004770000903755018080111627853003554444360065600008890410240201116090040061904443600467000085163502702011157602350619044436004670000858435027020111919462408438444360046700008528350270201118720686105920243600357000065794102409111159022851059203836001570000822762515080111518745610592038360048600007380550180801115809102)))
 (.node 2 (.node 1 (.leaf 10592000360014800007317390250801115244220101754443600467000073054102409011192794261049744436002150000880145022090111615559200000444360000000004109450221001115826654092344443600000000073034502202011163503620355444436006980000884039025090111616760810206444360054000008763410240901115841450068154443600467000083333502702011155007461059239936004670000764935027120111570241110592039360002100008924600160901115131122083604443600793058477954502202011159119380795044436001760000507845022071111615482210592025360051715726062370260801115732374096694443600467000071714102408011157489640000044436001360000308743023100111544926800000444360000400002944450221001114954572)
 (.leaf 7439444360054000008905410240901115972175105920393600192000072354502209011159531321059200036005850000508339025091111539307710592038360077700008891625150801115746025105920813600467000072534752108011160524761040844436004420000896850020080111915846810206444360061700007309370260201119134722087924443600517000078074102409011157376041059200036006820000763045022090111611650410592085360024700007264430230901115393309086084443600558000081575251907111157424281059239736004770000648350020081111563451310592000360044200006324475210811118850604105920003600293000063885251908111188477591059201236004310000790062515081111888273810427444360000000007453575170901115634443))
 (.node 1 (.leaf 10592000360002400007910575170901119267294105924443600011000077115751709111160643271059244436006210000902347521090111601875810254444360051700007982550180811115286091102064443600585000079694502202011158121791020644436005920000798645022020111582882910592008360079300007441370260201116124004105924823600477000067853502702011159320691059209236001640000693837026090111611321510592140360040000008303625150811115769550105920383600467000084555751708111162089441059208136004860000738643023081111567920710592081360034100006972500200801115783748098164443600431000070304302308011191381091059244436001980000755045022090111584704810592000360011300007893525190911115498089)
 (.leaf 10592444360002100008013625150911116931031105924443600689000090174502209011157364860876844436000080000516855018161111633316808200444360089700008614450221011115244650105923923600682000070863902509011161724051059241336004670000766237026090111549269910592345360041300006238430230911116115137105920003600334000053574102409011152070880857944436001980980808252519161111555161010592444360048600008996525190901115991576088734443600505000076584752109011158457320781644436000090000251645022071111513452900000444360000800006535475210201119267262074394443600698000087613902502011196927821059244436006690000872841024090111609202010592012360061700008374625150901116252315)))))
 (.node 8 (.node 4 (.node 2 (.node 1 (.leaf 10592140360061700008628650140901115203831105924443600007000072635751707111164683791059244436000240000807665014071111589440307687444360027300003952450221611115411608074394443600835000086423502702011172601781059235136000210000824960016090111927260310592059360038400007302390250901115472946090964443600028000046624502207111157507531059246436001700000868857517091111599033810592140360087000008891625150911119205923080754443600198000080984502209111192129761031344436002830000724539025080111938808208873444360030700008977525190901116186130105924443600006000064785751710111153233041059244436008910000902347521090111558499610592057360061700007740500200901115644960)
 (.leaf 7439444360085800008518330280201116175816068144443600807000089624302308011156447441059240936005170000792339025090111581477010592090360042305966735330280901119141015105923113600334015774204102409011158803181059230436003340985542141024081111582708809505444360020700008910575170911115682488105921403600870000089376251509111152647360807544436002930000475570012091111520230009842444360038400007444430230801119520614097114443600192000088704752109011163327310818244436000600000489143023161111564374207439444360061308018831410240901119781773105924443600803000088714302309011154952511059216937204420000720639025081111951059809505444360040000008864600160911116108720))
 (.node 1 (.leaf 9505444360036600008937625150911115571633105920813600400000074084752109111159581221059208136002070000482745022091111579168408075444360028300004226675130911115158690105924443600442000086423502708111172500270960444436004770000616745022090111955313107018444360077100007891475211401116681746105924443600423027489394302307111159261441059202136007140000605039025101111560260910592444360045000008971430231011114933891105920573600505000079916251509111159705921059221036004670275771845022140111584562510592067360043106017226390251401119453119105924443600505080572974502214011195359660421144436005400000642645022090111613015810592040360002200006451575170711115657233)
 (.leaf 10592000256065600006458450220711115811086105924443600136000063575501809111154913541059244436001920000656255018091111568770607439444360002600003656450221011115832453105924443600028000075735751709011153106101059233736003411534699233028090111579229109505444360034100008847550180911119093242105920813600477107352413902509111147340581059212936001920000768550020071111507764510592444360045000006484450220711115724770105924443600517000081847001207111153913751059244436006340000887641024071111589532809796444360055800008899450220411119138468105923373600467000087814502209011187655051059233736004500000868443023090111563582810592337360046735498710450220901119569962)))
 (.node 2 (.node 1 (.leaf 10592242360028311647420410240901116475698105924443600825080989764502209011159175710950544436004310000883447521091111533468810592444360036600008746675130911114881307105920003600334000089115501809111145174460867044436004230000593441024080111947701010592000360055800007820450220711119202448105924443600072000081096251507111149902441059244436007140000735235027101111520988010592444360038400008872450220711119075846067934443600055000058654502210111157752050681444436008070000897143023090111519630510592337360043100008928525190901115252342105923373600467000089565251909011188249291059224636005050905730937026090111605069310592246360054001637043370260901116239541)
 (.leaf 10592284360062300006381330280901119272985084014443600232000070516251516111158811660993744436001920000717262515161111898874810592444360046700008923625150911114817406105924443600423000090415751709111158050660847944436002070000444250020091111548129308279444360066900008357430230901115670266105924443600164000090316251507111150717381059244436000070000791057517071111531085910592444360052800007986450221011119130919105924443600148000090355751709111191357521059217136003570000745357517081111598614910206444360080300008995550180411116044489097964443600837000090326001604111154620290681444436007990000792845022090111500000810592444360046700008864600160911115692087))
 (.node 1 (.leaf 4992444360080700004516450220201115888850105924443600307000090456751307111150404001059244436005050000899447521071111580166308957444360077900006673310290811115460541105922273600832000090265501804111155066940600844436000260000895652519090111869296909430444360028300004421475210711114940088105920000100528000068344752107111189352741059244436003340000867155018091111463107310592444360046700009042600160911119326036105920003600019000084635002008011192327780910144436002570000889357517091111573694701888444360063400006220450220901119474822105924443600639000090245002007111158232711059244436000170000645157517071111544698410592444360001000008090575170711115106230)
 (.leaf 10592444360069800008685370261011115866209084604443600357000088184502216111158718250324244436008360000901560016041111496341410592239356030700007602450220901116112506105924443600057000088524752109011143317581059231036000480000892852519090111415544310592012360038400008941550180711119076992105924443600334000085845501807111147910560619144436006230000710145022090111936465410592444360002800007993575170711115803456105924443600100000067055751707111159739111059244436001700000676255018071111583980110592444360002100007993575170711116012455105924443600634000076093902510111190055401059244436007770000869937026101111509331003242444360083700009027600160411115055559))))
 (.node 4 (.node 2 (.node 1 (.leaf 10592000360020701688954575171401114348133105924443600467293065572503212011190235261059233736004310820718739025140111941588810592337360044202847322410240901119132099096384443600486000076604502214011155794101059244436003340000853255018071111479380210592416360066400005214500200911118877008086854443600634000056905002009111148155760573044436008240000693945022080111617202710592444360011300008032550180711115991103105924443600021000066325751707111158324730679344436000000000749645022071111433043610592444360083700009032600160411115121248105923443600176000088704752109011137370661059200036003341182896165014100111504630410592444360036614187337390251401115017780)
 (.leaf 9419444360059200005249550181611118512228105924443600334000087245501807111152371421059244436003340000903055018091111587322210592416360068902855455430230911114680980088634443600136000047923502709111189521661033544436001360000890567513090111696025010592000360036600006511475210711115890216105924443600601000090477001207111157134201059244436000320000786957517071111520487908548444360033400007613450221611114148283032964443600025000063614302302011159298931059244436008580000880939025040111548542010592364360046700006656250321001115480949091734443600664000050295002016111187226320917344436003490000459747521071111880826010592444360033400008976550180711114469209))
 (.node 1 (.leaf 10592416360068200005498475210911114443541088634443600157000088815251909111159262091059244436001000000805457517071111570466710592444360057600008012525190711114551945105924443600714000086553502710111144249171059200036004860000899345022071111874357710592444360083501728976450220411119375312105924443600832000089764502210011155495421059215236705491347773265014140111500120310592265360064305095836290300901119212825105920943600486000073705501807111157906611059241636005580000547745022091111418431908863444360057600004962525190911119044752105920003600450000089575002007111189532251059244436001830000648055018071111469198210592444360059200008778390250711115600606)
 (.leaf 10592171360056700007715500200711116086999105924443600576000089864502204111191420501059244436008370000903857517041111928959910592444360077110187495410240901115909346105923713600442051281633302809011144786341059244436003340000894155018091111594949908194444360055800005312550180711119017381087934443600819000056624502202011149619061059244436003070000810962515071111443656310592444360003200006683575170711118728036087394443600069135847444502216111158147340740844436002470000525145022160111556471110592444360080700008825390250801115019438068144443600467062367463102914011156855290424144436006170000694841024140111969670610592041360022600007941675131611119329673)))
 (.node 2 (.node 1 (.leaf 10592000360070900487207500200711118898216105924443600334000089275501807111147431361059241636004860000628955018071111571132908863444360077900005173450220911114662851105924443600517000089675251907111159435011059200036006890000658650020071111572103410592000360065600007845500200711118948755105924443600021000079935751707111191014821059244436000210000903157517071111391514310592444360002100007889575170711114739968105924443600592000090477001207111153077491059244436005850000810870012071111828253810592308360082500006053410240711114878747105923083600664017488364502207111161353600601544436001571580438739025041111459620010592444360058500008799410240411119370810)
 (.leaf 10592444360080700007938390250901114682226105920003600467224683413302812011151038931059242736007140000690347521071111892824610592094360033400008622550180711118306959105924443600021000080545751707111144471611059244436002930000803265014071111887431410592000360071400008628350270711114384167105924443600807000087613902508011192735540529444436006860837632239025020111926653209454444360023200008806675131611116458935105920943600334000088795501807111160515441059200036006390000525145022091111568687508628444360032200008374625150901115331476105924443600104000080136251507111160270601059244436001640000801355018071111921268410592444360019800007791550180711115240907))
 (.node 1 (.leaf 10592444360054900007882675130711116412245105924443600592000090527001207111183217751059244436005920000905270012071111819782510592444360070900008920410241011115746834105924443600837000090276001604111148417020882744436002320000826467513161111627141110592094360033400008894550180711116254086105920943600334000089275501807111150953371059214136003660000447655018101111573144008102444360063900004923475210911114998117087594443600528000086715501809111161621740843644436004130000859557517090111607319009659444360052800008694500200901115495608105920003600442000077925251907111139306121059244436000690000901657517071111448383510592444360016400007791550180711114466167)
 (.leaf 10592308360061300006232475210811116276273091804443600742084189965251908011161529900840044436002070000466245022161111488821610592000360083700009008600160411119503244084924443600232000051846751316111159726001059209436003340000892755018071111629578710592094360033400008879550180711114845440076244443600605029626244102409011156407411059244436000640000791057517071111529462609376444360007201796231500200811116273408081434443600072000047444502216111156814571059200000704860000353441024070111598200910592000360083700009015600160411119097763041574443600848005377793902502011154417670865844436002320000526967513161111653159310592444360068900008994475210711116287528))))))
 (.node 16 (.node 8 (.node 4 (.node 2 (.node 1 (.leaf 10592000360022600006481525190711118516735105924443600113000080535501807111141220081059244436002210000898850020071111597860910592000360033400008978500200711115986533105920003600198005389164502207111189440191059200036005760000887245022040111588756510592444360068900008237450220901114319242050094443600682231572354502202011162688881059209436003340000877955018071111459968309132444360061300006032410241211114327105105924443600357000080125251907111159018061059244436001440000797262515071111622706110592444360040000008996525190711118725164105924443600689000090145002007111189368070858544436002210000504262515161111674162510592000360069800006078475210711116175624)
 (.leaf 10592216360017005275822575171011118445829091324443600540000054273102912111143007690714544436006170000419143023091111504225910592444360005500006680500200711118551008105924443600021000080545751707111157258631059244436003070000807665014071111603674610592444360002400006632575170711116270048105924443600639000090375501807111150530221059200036008420527837931029071111918155309491444360080339529003550180801115801184105920003600013000034894502216111154725880823644436004860000791443023071111608400410592232360059200005780370260411113991335105920003600837000090426001604111158445590569744436005400301590327031080112023714610592599360071400007190475210711115827756))
 (.node 1 (.leaf 10592444360036600006722525190711118552828105924443600540000077537001207111160217761059244436004770000903557517071111604133210592444360077100009018475210711119025326105920003600669000087443702607111139295101059200036002320000896850020071111589763507846444360021500005988600160711114055139105922163600226000075336501410111157576041018144436005580000468639025100111657525310592294386060100008098450220901115707863105924443600134000067235501807111136618381059244436000210000801457517071111492218210592444360059200008148700120711116250493105924443600766000090285002007111142987431059200036003660000901950020071111604827507756444360002500003811450220711115807922)
 (.leaf 10592000360083700009015600161201116012090105920003600836000090165501810011160820401059200036008280000860435027100111593734309235444360077100008378330281001118867280105924443600782124584793302810011157088080491844436006340000619531029020111956119110592216360034900007382650140711118731119105924443600057000089545751712111147859121059244436000320000670455018071111367854310592444360029300006720475210711115579850105924443600069000079925501807111137757131059244436005170000818470012071111906026410592444360060100009051700120711119148474105920003600558000089814302307111161040241059200036003410000902850020071111625445110592116360055800008986450220811114713871)))
 (.node 2 (.node 1 (.leaf 10592000360082800008529330281001115638115105922163600366000069896251507111138842411059200036004130423721043023101111627317510592444360030700006720475210711113476125105924443600742000090335251907111150173481059211636008240000856433028071111466824110592084360010400004134550181611115245886105921013600232000082086001607111159213710864444436005670000835660016071111578498710592336360068905368123370261001113908760061914443600714018888014502212011187736450804744436001980000500257517071111538970610592444360034100006631600160711118586889067994443600669097774384752108011150098640960444436006690000709150020071111604688810592444360001800002239370261001114033275)
 (.leaf 10592444360071400006745525190711115955764105124443600742000088155002007111188887691059200036006980308879941024071111428611608955444360065600004137270310711115569877105920003600824000085183302810011158910470911544436005920000695135027090111886028110592000360071400006834475210711115849954105924443600273000065635251907111131104341059244436002570000674450020071111362667510592444360059200009052700120711113555365097014443600617031186053902512011159717150982444436008670063824631029100111529752508938444360071400006755475210711118694032105923423600714000067554752107111185796511059244436003410000895162515081111488257410592444360051700006505575171211116093113))
 (.node 1 (.leaf 10592444360055800006657500200711114714048105924443600714000090174502207111159439011059244436007140000900645022071111419332610592444360071400008976450220711116104115105924443600714000090124502207111161094961059244436006560000678762515071111603666510512444360071400009025525190711113872299105924443600704000090165501807111157637991059200036006980000740237026071111884611110592000360069800008712430231211118570894072064443600682000046222503210111150322390023844436006010000507357517071111581182509634444360041300008779550180711115465348100034443600567000088776001607111158337070967744436005760000900160016071111581222009701444360081900008993600161201114299327)
 (.leaf 10592209360070400005473500200711113462825036844443600682000053595751702011166377711059244436006340000642447521071111641615110592444360071400008977525190711115880338064254443600450000090155251907111161015331059200036008371870894350020120111932985510592103360082400007753390251001118579124071094443600682000052514502210111207841851059244436001920000672557517071111379931310592000360042306727795475211211114054557105921103600742000065424502210011167484230706744436006170435655270012051111597962810592595360030721078584550180711113491677105923303600714000045314752107111203901601059210136003570906889750020071111364505010592000360083705498944450221201113861809))))
 (.node 4 (.node 2 (.node 1 (.leaf 10592103360079903177884330281001113602119091154443600825000079694502212011137556641059220209903490000476447521071111618841810592082360018300004990475210711113248623105920370300621000059804752107111138092951059200036006170000661255018121111596637210592444360061700008973625151011116088959101444443600782160985953502707111158815330496344436007140000874437026071111343447010592014360069812027572475211211114078364002384443600623031841293102910111133776101059262636008370000895745022120111877065910592000072061700004547500200711113556654105924443600709000063915501807111162394121039444436006170000662670012121111586732810592444360071400009025525190711119510049)
 (.leaf 4963444360071400009013475210711117005621105922833370585000048493102910111162631811059210136005920000901170012071111359153810300444360063900008954575171201113685693105924443600643069460305251912111138803461059200036006210000901950020121111907042508303444360000000006813450220211115845886105921013600384007079765002007111132244541030044436008370321899360016120111354548010592444360083511198814410241201112872838092364443600870388480973302812011157609940619244436006561705771952519020111622290610300444360083702019002575171201113532699049634443600714000090285002012111200843210838944436007140000901847521121111421641908590444360070939516202500201011118889286))
 (.node 1 (.leaf 444360063405805128310291201118695486098834443600837058090136501412011134901140838944436007140444887641024121111658357202892444360000000005477450220211115889440098834443600837000087637001212011129198721059244436008280000852933028120111279862810592444360071900009020625151211115623578083894443600704300769725002012011134836701059239336003340000396347521071111580344509883444360083710458655700121211113387760105924443600832000086253702610011181720181059244436008280447844033028120111936116904963444360070900008987475211211116225492083894443600698020578205002012111164521751059244436008250328849433028120111584224910592247376062300005459475210211116279562)
 (.leaf 511360089603307809370260201118514780051254443600357000073605251907111159181831059200005406340330898755018120111866187809489444360082400008920700121011115979829028054443600960182653727001202011122969540522944436006340000596329030020111631911810354444360066902098983650141201116174745025724443600807000059863302802011159384560385244436008440212565333028050111602821310467444360071400008937625150711112512142040524443600901021368923702602011128336550512544436007040000488152519070111573926410302444360024700006071450220711118233931100284443600100000055644502207111159504121019644436001640000658345022071111611924204543444360062700835794550180201116007648)))
 (.node 2 (.node 1 (.leaf 5237444360029300004577450220501116920636094484443600221000056484502207111162023251047044436002210000887245022071111582781010592000360018600004797410240711117745855105924443600221000087634502207111158293760502344436000220000440845022050111538204409281444360034100004946410240711111638430062314443600540000029444502205011113736950667844436008450000766750020100111159938305311444360000000004109450220501115429543105920000460164000056894302307111163902310000044436008720000595845022100111798664308488444360000000005648450221001111191222065344443600001000041115501805011106252230739944436000050000603052519100111009268309497444360019200006238430230711117713663)
 (.leaf 10007444360018300008763450220711116497132101574443600136000086654502210111109774760949744436004500000531943023071111032973900000626360077700005864450221001109982154098864443600766000086364102407111104604560718844436006130000537750020050111625905309388444360066900008573450221001110252152090984443600026000085734502210011161729660398144436002150000669730002050110904885309846444360089800006697300021611114720902098464443600357000066973000216111148066101059244436002930000901730002020111621064001296444360062300000469300001501087446708022904443600623000005023000015010884566480000044436006230000001845022150109123309100410444360062300000311450221501115142078))
 (.node 1 (.leaf 788444360062300000831450221501115150116003334443600623000007414502215010923173690229044436006230000047530000150109047309202290444360062300000978300001501113482672029374443600623000007733000015011133255680001544436006230000015345022150109204444200163444360062300000573450221501092299076004614443600623000008504502215010918724870187744436006230000039045022150109099924103200444360019800000000300001501113482672032004443600198000000003000015011134826720282944436006230000048830000150111348267200415444360062300000330450221501092841770032004443600198000000003000015011134826720265244436006230000000030000150111365979602549444360062300000850300001501091501739)
 (.leaf 255444360062300000205450221001093123477008444443600623000005584502215011153956490180044436006230000100945022150111332556803040444360062300001009450221501092003525030404443600623000010374502215010920035250337944436006230000050245022150111348267201350444360062300000886300001501092003525001824443600623000011494502215011159843340015544436006230000034845022150109379399003205444360062300000104450221501092504558033794443600198000000000000315011134826720337944436001980000000000003150111348267203379444360019800000000000031501113482672033794443600198000000000000315011134826720337944436001980000000030000150111348267203379444360019800000000300001501113482672)))))
 (.node 8 (.node 4 (.node 2 (.node 1 (.leaf 2823444360019800000000300001501113482672028234443600198000000003000015011134826720299244436001980000000030000150111348267202814444360019800000000300001501113482672029594443600198000000003000015011134826720297944436001980000000030000150111348267203087444360019800000000300001501113482672022904443600198000000003000015011137006490022344436006230000098745022150109469832003189444360019800000000300001501113482672031894443600198000000003000015011134826720318944436001980000000030000150111348267202433444360062300000280300001501093004802004664443600623000012304502215011149008210000044436006230000006545022150111464961403189444360019800000000300001501113482672)
 (.leaf 3188444360019800000000300001501113482672031884443600198000000003000015011134826720310244436004860000000030000150111374548803188444360019800000000300001501113482672031884443600198000000003000015011134826720311544436001980000000030000150111348267203077444360048600000000300001501113769375031024443600486000000003000015011134826720092244436001000000055830000100111473489800458444360062300000000450221501096922959036244443600198000000000000315010945004120313144436001980000000030000150111348267203200444360048600000000300001501113482672032004443600486000000003000015011138200210310244436004860000000030000150111348267203102444360048600000000300001501113482672))
 (.node 1 (.leaf 3102444360048600000000300001501113482672031024443600486000000003000015011134826720310244436004860000000030000150111348267202334444360048600000035300001501094997115014784443600623000005673000010011133255680313744436004860000000030000150111348267203183444360048600000000300001501113482672031784443600486000000003000015011134826720320044436004860000000030000150111384675601625444360062300001453450221001115082063032774443600486000000003000015011134826720320044436004860000000030000150111387441503102444360048600000000300001501113482672023094443600623000000403000015010959875430104644436005850000043645022100109807182702656444360062300000731250321501114591527)
 (.leaf 2755444360019800000000300001501113482672027254443600198000000003000015011134826720258144436001980000000030000150111393244903186444360048600000000300001501096481193032714443600486000000003000015011134826720324844436004860000000030000150111348267203200444360048600000000300001501113902984015594443600198000005674502207010984477860028044436008420000058945022100109896600802781444360048600000000300001501113962796027814443600486000000003000015011139627960278144436004860000000030000150111396279602781444360048600000000300001501113962796027814443600486000000003000015011139627960278144436004860000000030000150111396279603249444360048600000000300001501113482672)))
 (.node 2 (.node 1 (.leaf 3264444360048600000000300001501113482672032004443600486000000003000015011134826720320044436004860000000030000150111348267203200444360048600000000300001501113482672032004443600486000000003000015011139324490320044436004860000000030000150111348267203200444360048600000000300001501113932449031024443600486000000003000015011134826720310244436004860000000030000150111348267203102444360048600000000300001501113482672015594443600549000005574502207010986442840155944436000260000124545022070109864298501559444360041300000714450220701115440165031864443600486000000003000015010974651780318644436004860000000030000150109746517801635444360087000000557450220701099405174)
 (.leaf 1559444360050500000481450220701099335379015594443600835000007744502207011156088680214544436008700000155945022150111410074303186444360048600000000300001501097955438016014443600623000001263000015011134826720113344436006230000057330000150111332556802485444360087000000639450220701099638782015594443600870000013544502207011159771270240044436008700000133945022070109957434001648444360062300001009450221001114477632026614443600486000000003000015010984444910318644436004860000000030000150109844449102366444360087000000867450220701099724360015594443600870000008314502207010995134560206744436009580000139645022070110030837000535444360062300001526625151001099918228))
 (.node 1 (.leaf 3186444360048600000000300001501098919975023964443600486000000003000015011134826720155944436009640000139645022070110058464400366444360062300001546625151001114858674004514443600623000007886001610011159546500361044436004860000000030000150111412724601870444360087000000567450220701116378350016434443600964000013544502207011004053180260144436008700000142745022070111601092203006444360098900001479450220701100507835015884443600870000014274502207011001439270043144436006230000149560016100110023496401522444360062300001052575171001100668813017024443600623000008674502210011147555850301944436000260000096757517150110065128703037444360048600000000300001501114162571)
 (.leaf 344444360062300000558300001501113325568023664443600870000014354502207011012626610236644436008700000141745022070110047288401559444360091600001427450220701114920175027464443600870000014274502207011149872400308944436008700000151845022070110090514000707444360062300001343550181001115824902007604443600623000005896001610011007192770203444436004860000000030000150111419867003037444360048600000000300001501099647781029564443601071000015354502210011158007810236644436010270000146545022070110128442601643444360085300001453450220701100624163017174443600845000008504502207011005914390000062636008670000137945022070110121711200000626360085300000886450220701100788176))))
 (.node 4 (.node 2 (.node 1 (.leaf 3265444360087000001551450220701100602849017314443600623000011146251510011005786090200844436000690000066560016100110100498101280444360062300000579600161001100904866036104443600486000000003000015011142355270376644436009040000155645022100111447028001643444360084500000741450220701101394394017174443600144000004514502207011158116240171744436004000000051645022070110104900702445444360084600001417450220701101204146028564443600870000015184502207011158747370305644436008700000151045022070110129102602029444360062300001045450221001115150074012804443600198000010976001610011019495530007544436006230000011260016150111518083302431444360048600000000300001501100129538)
 (.leaf 3610444360048600000000300001501114273125036104443600486000000003000015011142731250361044436004860000000030000150111427312503610444360048600000000300001501114273125036104443600486000000003000015011142731250361044436004860000000030000150111427312501785444360048600000000300001501100129538036424443600875000015104502207011013726740301244436009420000147945022070111562782002827444360087000001435450220701115914088023664443601054000014654502207011155339250512644436006860000123045022070110133241300110444360084800001501450220701115081566000004443600848000015354502210011148133720002544436008480000151845022100111589184800001444360084800001547450221001114788025))
 (.node 1 (.leaf 1754444360062300001017450221001115774994004724443600623000004316001610011019296980055244436006230000049060016100110188245600996444360062300000554600161001101431716009454443600623000006656001610011012398890225944436004860000004630000150110036932903610444360048600000000300001501114311447036104443600486000000003000015011143114470361044436004860000000030000150111431144703370444360048600000000300001501114311447032184443600486000000003000015011134826720363944436008850000152445022070110140763103305444360087700001535450221001115087318033224443600983000014534502207011018303460164344436001440000035745022070110131590001643444360082500000714450220701101347572)
 (.leaf 1643444360084500000774450220701114703754016434443600400000006444502207011157062080164344436000140000039545022070110144738801783444360086500001321450220701102186857017074443600845000012834502207011021314370326544436008070000133945022070111584881902675444360083900001354450220701102092295000004443600848000015284502207011020958980000044436008480000147945022070110185845100011444360084800001490450220701115011229016384443600623000009364502210011024658160160944436006230000106545022100110181562701331444360062300001065450221001115173185047044443600423000023405501807011146343630000044436006130000402155018070110245779901643444360002600000357450220701101847016)))
 (.node 2 (.node 1 (.leaf 3181444360084500000886450220701116013908105924113600845000008764302307011025049940512644436008450000085045022070110215433505126444360079300001217450220701102932054017834443600032000011494502207011022122490267544436007900000143545022070110182491800000452360082400001283450220701101582999000124443600832000013264752107011160281140036544436000690000048755018070111537631700880444360084800001332390250701102875828017584443600623000010304502210011152083000133744436006230000103045022100110236065301400444360062300001009450221001114543751007804443600623000010564502210011158628030095244436006230000094860016100110187012003370444360048600000000300001501113482672)
 (.leaf 2948444360048600000000300001501100846641034114443600689000042715251908011149946821059238336004230000019945022100110267806901643444360000000000831450220701102122473016434443600845000008984502207011022450270244544436008450000042645022070111604943410592411360084500000766430230701101949313000004523600134000013964502207011160089210137244436008450000141243023070110239570901217444360084500001435450220701116023353013964443600870000015104502207011160528600093144436008390000147045022070110206273001789444360087000001443450220701114286356006664443600576000010384502207011019871090000062636007990000081447521070110218927901335444360061300004127350270701114170658))
 (.node 1 (.leaf 1202444360062300001036475211001102443515008504443600623000011466251510011155890210239844436004860000000030000150110108412602024444360048600000529300001501113482672000004443600689000033475501808011020451971059244436009280000565755018080110256482400000444360070900005476550180701114891781034174443601086000015104502207011153103390294144436010300000149950020070111640350202250444360087700000910500200701115685352031914443600879000014274502207011031080450379544436008910000152845022070111505178603890444360089000001510450220701102876713105923833600221000002184502207011029086000164344436000080000026745022070110195033101643444360085300001339450220701102491206)
 (.leaf 5126444360084500001254430230701102426568051264443600215000007744502207011026229750000045736000110000130045022070110216559500000444360052800001217450220701102153650013724443600845000012713302807011162802950064944436001700000042645022070111595186900666444360002600000181450220701102246447105922953600623000009524502207011025854090167044436006230000097845022070111521890102825444360062300000710600161001114443318012314443600207000006556001610011027947250054644436006230000047662515100110312108803610444360048600000000300001501101320808105920443600028000029625751707011024230831059204436007420000515357517080111608474410592444360045000005273575170801115989029)))))))
 (.node 32 (.node 16 (.node 8 (.node 4 (.node 2 (.node 1 (.leaf 3890444360087000001479450220701103283460029474443600848000013964502207011161239690000050536004000000042645022070110291850901643444360084600000831450220701116162326047834443600845000007723302807011027701360512644436008450000079743023080110271273705126444360000000000644450220701116173069000004523600009000012834502207011160895220000045236008320000145345022070110307028900000355360084500001453450220701102869091010814443601048000015104502207011162304290108144436000260000032245022070110245491900000596474040000000987450220701103311756015664443601096000014654502207011154808770124444436010960000150145022100111458608200086444360002400000365550180701103132226)
 (.leaf 488360084800000714450220701115804807002384443600848000009904502207011030359220000044436008480000077445022080111509054007341444360062300001101450220701114906065073414443600623000015014502207011024336670266244436006230000109245022070110252235102376444360062300000898450220701103404457008114443600623000004906001610011161055150202544436006230000071060016100111569089701231444360062300000676600161001115828338011194443600623000006866001610011027374460284644436004860000000030000150110155666602470444360000600000281300001501113482672000004943600028000010025501810011163850670000044436006560000438562515080111634849210592044360074200005816625150801115101856))
 (.node 1 (.leaf 6659444360083600004752525190701102567958033114443600627000014615501807011157972360294744436005580000071445022070110310622604783444360084500000637330280701102717272000004443600845000006804502207011029998050512644436000160000057345022070110305770600786444360002600000345450220701102826975000744443600060000006094502207011145347910000048736008450000029645022070111515270700000487360083900000322450220701116007021000004883600839000012204502207011031227650127644436006230000055460016070110314567902711444360062300000686600160701116012804011514443600623000006785501810011037573980145744436006230000069460016100111496677402986444360048600000000300001501101791684)
 (.leaf 2865444360048600000000300001501113482672016164443601082000061405251908011031651461059242036008850000626155018080110312415706331444360061722035672575170801115021837031544443600891000058005251907011030223440000044436009300000785657517070111601288803553444360096300007065500200701103067513043974443600450117442605251907011030101000302744436006690000229257517070111622461504217444360087700001518450220701102907927000004443600007000003574502207011162786440000044436000070000035745022070110261889204783444360034900000740390250701102958450051264443600845000007524102407011027452550512644436006270000058945022070110342765800000507360052800001038450220701103421254)))
 (.node 2 (.node 1 (.leaf 452360000900001038450220701103123563000004443600845000013964502207011033686320474744436005280000041645022070110325897500000444360001100000395450220701103271876000006263600828000024964502207011033935700000048736008390000272145022080110365918600000487360080700003566450220801103429785002384443600807000030084502208011035328190000044436006170000129962515080110316137300000521360114100000597390250901102476447009424443600623000007036001607011030487180000054336006230000077860016070111590581000000460360062300000665600161001116348635005894443600623000006866001610011149042500298644436004860000005230000150110202584302986444360048600000000300001501114555631)
 (.leaf 2986444360048600000000300001501114555631031524443600486000002073000015011134826720000049436003660000414957517080110324786500000444360082400005863625150801115821706062684443600605000058935751708011041204810514944436009860000622752519080111627967300000444360088500008485500200801103566428040394443600875000014904502207011150122031059244436008980000150947521070110408831003347444360084500000916450220701103502437051264443600845000013394502207011035035080023844436000000000068045022070111604647804735444360070400001076450220701103499688000004443600005000009874502207011037677820000044436008450000151845022070110344768300000579360018300000426450220701103531347))
 (.node 1 (.leaf 444360011300000345450220701103050395007864443600621000004514502207011043606050078644436000320000021845022070111546797400795444360015700000416450220701115479846007854443600807000027534502207011038843020000044436011410000084439025080110370625400000521360114100001266390250701103077378000005213600930000011476001609011025476060094244436006230000109760016070110370271601581444360062300000739600161001103538918029864443600486000000373000015011134826720719244436000000000425745022100111570559806094444360092300006413650141001114628317045894443600048000032096501410011152882481059237036007930000537062515080110415531205838444360068900006086550180801115835874)
 (.leaf 10592444360082800004340475210701103834988000004903600011000003454502207011158149500042044436000090000038345022070110318879401643444360001300000395450220701115070904016434443600000000008674502207011157212060102444436008450000071445022070110343383605126444360068600001028410240701103530381105923433600000000011154502207011036500000000052736000090000040245022070111527706000238444360076600001902475210801115967835002384443600766000042964752108011041308290203744436007820000133862515070110386620500000493360061700001170625150801103904550000005023600617000012136251507011159930870180744436006230000073260016070110376872901322444360062300000627600161001103944909))))
 (.node 4 (.node 2 (.node 1 (.leaf 2971444360048600000000300001501102491515029714443600486000000003000015011134826721059229936008280000593362515080111609182706264444360071400006453550180801114660270079864443600567000077895751708011151412011059244436005580000894057517080110415555610592444360088500007484600160801115802594035534443600968000075234502208011043430421059244436010250000747045022080111618538410592444360078200004439575170701105041768036754443600803000044975501807011152181800000044436008710000449852519070110377037500000444360084500001689450220701103972460000004443600019000004164502207011161260030000044436000060000036745022070110377624500420444360001100000383450220701103566261)
 (.leaf 4142444360052800000849370260701116293792000004443600000000004514502207011035850840512644436008450000134439025070111602146105126444360084500001308390250701116381143051264443600113000003674502207011161448391059234336000000000103845022070111533248500000507360000500001149450220701115882422000005073600048000010104502207011037680470000050736000000000098745022070111533454900000452360001600000395450220701104026918000004523600009000010764502207011037647710000044436005580000123045022070110399926500000508360001300000244450220701104045575015004443600870000005294502207011039160390135544436008070000398445022070110382768700238444360069800003373475210701116251661))
 (.node 1 (.leaf 493360069800000422625150701104675879043974443600704000022025002007011160630650000049236006230000075660016070110408814010592401360062300000756600160701103725784024454443600689000069415501808011039063520244544436006890000579455018080110422406106419444360077100007015575170801104304811105923963601063019563955002008011042468760355344436008030000783465014080110455826310592444360062300004474600160701104619216000004443600858000044975501807011044166810000044436008770000444245022070110420133110592444360057600004386600160801116423438000004443600799000059944502208011048505140181544436008450000125339025030110521075100000444360001300001379450220701104412698)
 (.leaf 444360000100000680450220701104368119000005273600000000003674502207011043499990051444436008070000412545022080111439077700000533360069800002430475210801104590162020374443600835000021666001607011153272020000045336008580000292662515070110413184700000539360084800000762625150701114000795000004443600623000007476001607011040360841059240136006230000071960016100111478776501457444360062300001146625151001103553781007274443600623000005096001610011165285870256844436004860000000030000150111348267205385444360068900004456525191001104042749043974443600689000070665501808011051382310439744436007140000626155018080110447882110592444360082400007165575170801104819733)))
 (.node 2 (.node 1 (.leaf 444360084600004518575170701116578408000004443600828000045325751707011164403960355544436008620000447752519070110481767910592444360087100004518575170701104976806004204443600000000004514502207011041055270414244436000000000050045022070110454025105126444360084600001353410240701115408924051264443600836000010223902507011045907150512644436000000000090145022070110430154300000555360000000000790450220701104797750000004443600528000013214502207011151812290000044436000070000119945022070110407402700238444360080700004216450220801104833273002384443600807000021524502208011044751590569744436007040000266852519080110469482903618444360114100004222390250701114672845)
 (.leaf 238444360085800002926625150701104666635000006263600623000011656001607011046240860217644436006230000074760016100111585276603584444360048600000000300001501103183140056444443600925000062675002010011143785571059235736009280000600152519080110412371310592444360103600007224450220801104785395105923763600835000044946001607011164771580355544436008390000449460016070110503245110592444360085300004836575170701104583632105924443600623000053096001608011167112550512644436008360000144345022070110508176905126444360000400000401450220701105197206000004693600001000009874502207011051226810000044436000060000051845022070111515359800762444360000300000322450220701105010323))
 (.node 1 (.leaf 420444360084600001242330280701115715924022294443600870000015354502207011148757620000044436008070000412545022080110431428703554444360083500002840600160801105226627105921864350835000003886001607011162485720058244436008350000156060016080111594501500000444360066900002981475210801104784783000004443600858000028976251509011158379560073444436006230000077860016070110474273800947444360062300000739600160701104276128027084443600623000011714502210011133255680572944436009480000897557517100111517724105813444360095200006506550181001114591673043974443600689085054115501808011162220161059244436007140000648055018080110474182504603444360055800008726475210101116220026)
 (.leaf 3112444360071400007729675130801115121837105924443600790267589056751308011154293901059235836005920000773362515080110606938310592444360083900007230600160701105138330000004443600828000045996001607011148982301059244436008770000778957517080110528856710592444360000000005406450220801105168933000004443600477000004164502208011044090130042044436008450000042645022030110484360604195444360084500000800390250301116269208051264443600845000012723902503011165104260512644436006860000128441024070110540673205126444360000200000367450220701105738309000004443600001000010764502207011162873390000057936000140000026745022070110501157000000557360080700004270450220801105675098)))))
 (.node 8 (.node 4 (.node 2 (.node 1 (.leaf 594360083500002571450220801104823967035544443600835000023746001608011051943630000020736011410000346639025090110453378700238444360085800003646625150701115313922033684443600486000000003000015011149142390439744436007930000768257517080110472456106503444360068901777737550180801115390598105923213600714000057095251908011051563130569744436009190000782050020050111483181304397444360058500008779550180101116215698000004443600000000023424502208011052971930512644436008450000139843023030111672014400000444360000000000680450220701116219212000004443600307000012454502207011052330860000044436000010000114945022070111556461201512444360002600000395450220701105455058)
 (.leaf 563360068900001958475210701105445117000004443600835000025276001608011055140570000044436008350000265160016070110569572700000113360114100003315390250701105305269000004443600853000007626251507011144811420247644436004860000158930000150110386608710592307360070400005842600160801105666567105923123600714000075945501808011150132931059244436007140000617055018080111656476104511444360077725018972650140801115845165024454443600916000077626001608011056481961059219036006690000886060016080111615231404890444360085600007569525190801106251260068144443600845061907703902503011155631350512644436008420000145345022030111639667005126444360084400001354450220301115695438))
 (.node 1 (.leaf 5126444360002800001321450220701105656611000005313600001000005584502207011056682530000025336000010000095645022070110564137301128444360071900000970450220701116322273007624443600613000005474502207011055329280076244436007990000130045022070111644133800000444360080700001443450220801105471616000004443600835000021915751708011055062640023844436008350000239260016080110539566403555444360083500001718600161001105902794000004443600643000027814752108011054887890000044436009780000361955018070111487361400000444360014400003429390250901114115795038034443600858000029606251507011054147610073444436006430000169262515070110535102701393444360062300000803600160701105479628)
 (.leaf 3383444360062300004173300001001113325568105923593600689000056575501808011054520481059244436007140000592352519080110579743610592274360087100008531550180501105678015002384443600714000079515501807011166504810000044436000640000046845022030111629313200420444360084500000529450220301105625778050714443600845000013253902503011163277650512644436000030000019945022070110571601800000444360001900001149450220701115377081007224443600634000013004502207011146477320000056336006890000820345022080110581946900000444360083500002405525190801106384850002384443600779000032334752108011058411420023844436008420000298562515070110623264002419444360062300000756600160701105228830)))
 (.node 2 (.node 1 (.leaf 3815444360062300004543300001001113325568030504443600486000000003000015011134826720441344436006890000436760016100111446971101403444360068900003381550181001116291388105924443600714000060645251905011060434271059244436008530000600152519050110656277910592349360085800007740500200501115563763105924443600963000075234502201011068442630244544436009610000751655018010110728746110592444360079000008861525190801116492243105922433530877000087404752108011152472621059244436008420000834750020080111675870410592444360087900008018475210801115791460105924443600837000083055002008011167241960471544436008350000879155018080110712421503236444360074200001556450220301106017002)
 (.leaf 6814444360094000001294430230301115385199019144443600779000040374502207011148860070236044436005580000172145022070110697299900988444360080700001559450220701114103330000005573600807000043314502207011159729710377244436006893392503745022050111528636400000444360034900002638500200801106624416000004443600839000030156251507011055296220132944436006430000074562515070110564175102181444360064300000777625150701105722428033924443600024000007074502210011063306410249444436006230000339630000100111332556804080444360068900002665600161001106135537000004443600689000064145501808011162730710355444436006890000668760016010111611259210592444360066900007321430230501106200189))
 (.node 1 (.leaf 4196444360074218187787600160501107423297041964443600839000073705501805011073510800471544436008780000864445022080110685519505240444360084500001973450220701106254968046194443600845000012834502203011061795470456444436008450000296139025030111652182600000444360000000000367450220701116315142000005313600016000003674502207011163794240100344436008070000177845022100110700491704317444360068900008885450220801115914351000004443600627000058654502201011071106840023844436006010000345660016010111601144200238444360084500006944330280801116108937000001474880623000064895251909011145922361059219536006890000277055018090110662375900000434360079900002985600160701106463720)
 (.leaf 1404444360085800001176625150701106744155036884443600024000006994502207011154235951059243736006890000506955018010111616575910592422360076605736682525190501114593268061904443600837000087995002005011171560640485944436008070000872647521050111593383005125444360085800006592500200501117228022105924443600890000087604502207011152128881059244436008620000884145022080111528799210592444360083700008677450220501106901425030834443600669000088076001605011068139060000044436006430000885562515030110712041605126444360001000006598450220501114901125041034443600845000021464502203011062274590000044436008190000126145022030110701774500000450360000000000367450220701115755398))))
 (.node 4 (.node 2 (.node 1 (.leaf 444360000000000614450220701115506900026974443600517000024444502207011068028290171344436000260000373945022070111528876701269444360028300002944450220701115238015000005643600807000068844502207011078228580042044436000260000171555018100111622038100000626360083500004215600160101107644248002384443600144000060915751701011080605010000044436007140000478460016010111649510000000455360108500007114370260801115726712000004443600643000066185251909011164764550339244436000240000067945022070110744255500000626360002400000629450220701117066481105924443600858000087435002005011172751130488944436008280000885345022050111811116406813444360079000008873525190501116356855)
 (.leaf 10592444360077700008914500200701106828531048764443600875000086614502205011069472840323644436005490000594545022050111514011503236444360084500004201450220301107133175052404443600845000039844502203011067484340000044436008450000329045022050110743186703286444360084500000680450220301106825196011654443600247000015844502207011172228350327644436008620000206045022070111657296000238444360080700007550450220701107509949000004443600819000056845002001011084985570076244436011410000730239025090110829475110592195360017600004906600160801108042822014044443600689000036495501807011079829180477144436006891874471552519010111600280800000444360068938496254525190101115845001))
 (.node 1 (.leaf 10592384360085805467302390250501116367731105923463600888000077174752105011179693320512544436008191090881647521050110793713000000444360068600008779550180101108296362063624443600845000053384502205011078153150000053236001340000242345022050110733684802855444360080700007297450220701115506243026684443600025000030584502207011156890710070044436002830000255245022070111611503603276444360102700003876450220701107121675003724443600192000038114502207011071210450000044736006010000537150020010111729239004766444360068900004825600160901107959828000104443600656000008036751307011081007110380044436000240000067945022070110817147900000626360002400000699450220701116262254)
 (.leaf 4843444360068900004801525190101117567187105924443600853302361405251905011080279010746244436008280541771550020050110854352510592384360087100007891475210501108205054068154443600799073572974502205011179458680681444436008281374880145022050110832870710592444360080700008818450220501107689472014044443600623000089636251503011181925360312144436008070000700945022050110809788900000478360084500006551450220501116894420000004443600686000028204502203011078243140398244436008450000172645022030110722252900000444360084500000850450220301116895953046464443600000000003674502207011170918320275744436001340000186445022070111721468204958444360080700007630450220701108265568)))
 (.node 2 (.node 1 (.leaf 10592394360002600002296550180801107937720024454443600634000068694502201011083005500355544436010280000727737026050110801634610592192360068900003682550180901108114692040974443600024000007274502207011080402150106044436000240000251347521070111613702410592228360083216136294575170101117448186105923843600836172577145251905011087239420540244436008281934886557517050110847868710592161360082800008865575170501117212093105921613600782000071474302305011175822540512544436008281066717445022050110775150605125444360082800007174450220501107899998105924083600849000088014502205011082417401059202936008250000889945022050110881391910592029360080700008801450220501117018137)
 (.leaf 4641444360083700008872450220501107931567002384443600000000060414502205011084760940524044436000000000564345022030111593341505240444360000000005178450220501114954445000005453600000000002614502203011078856010611944436009840000557552519070111571062601404444360093300007560500200501108095881047664443600689000064856251509011164724690157644436006640000286252519070110854757610592422360082826337548475210501117603243068154443600803147172524752105011079077211059240836009110897880145022050110832457304236444360094800008872450220501118053960049164443600779000088014502205011079482200355444436008070000472445022050110898443303553444360001600001845450220301108093814))
 (.node 1 (.leaf 4646444360000000000573450220301115751511061564443600890000083954502207011164232500000056536006170000315560016010110800670800762444360063400007701450220101116285604044654443600997000084594302305011162952501059233436006890000640060016090111656486710592313360093500003490500200901117600974002334443601141000011714502207011162939390000062636000240000273945022070110826841910592422360082800007819525190501116562895051254443600742157969974502205011163106860512544436002731322673745022050111721728310592444360082500008226310290501108327819014044443601003000089314502205011163203920499444436009251579876345022050111641982604891444360084600008836450220501108333911)
 (.leaf 444360000000001190450220801116041453000004443600000000003364502203011077881830464644436000000000180545022030110824439500000626479054000003928475210101117307735105924443600689000051426001609011087733990000062636006340000290745022070111619519900000550360002500004455550180701117567302030144443600026000032535751707011154871350802944436008281025762157517050110917024110592444360082807037685500201401116007899000006263600000000002444502207011170124180000054536000080000169145022070111715608803554444360000100000929450220701117306366000004443600000000005584502203011083817580464644436000000000057345022030110823629600000444360042300007976500200501116891885))))))
 (.node 16 (.node 8 (.node 4 (.node 2 (.node 1 (.leaf 4559444360097300006060575170101108909802000006243600024000036634502207011088451381059206036000240000599445022070110898205800420444360113400004911475210701117225663040224443600026000037205751707011160333950991444436008241299842135027050110837938503290444360082400008356290301401116229593105924443600930000082683102908011086778300681444436007420000866545022050110867983906814444360000000005065450220501107901610000004443600000000002294502203011163238840613044436009470000590550020070111642419000000444360014800006553550180501117499248000006264890026000056835251901011158882630319344436011140000887245022050110887060406256444360002400004898475210701108213323)
 (.leaf 4802444360002600003823575170901115468911065164443600828011374174502205011091516081059216136007042967866545022120110886800605697444360070917496737450220501117352710105924443600803288283583302814011086567191059262636009401005837931029140110867033910592391360095000008439310291401117466607089244443600928000083783302814011084973000681444436007142397852641024050111763810000000444360079029948355390251201108889543051254443600807174984384502205011173074960023844436007931941711645022050111611938905125444360000012876138450220501116173792000006263600273000024444502210011171285790000056945100640000211745022070110863577800000444360000000000244450220701116862070))
 (.node 1 (.leaf 444360000000000199450220301108628063000005363600664000067735501801011172638980396944436007990000847735027120110890516500000626360115900005656330280101109041471000005143600634000050324502209011093135110000047236011410000355345022070110873574210592436360002600005531575170701108864003000004443600026000048925751707011159181320576044436000260000465857517070111590756510592412360082804967629475210501117443640105924443600828422386654502205011178380450569744436008031517673745022050110952831305697444360083515176997450221201117892728103334443600790099485393502714011162841070601944436009770000852835027140110899097800238444360001000000267450220701108678139)
 (.leaf 444360041300003412525190101108958728000004443600215000049165002001011176435410396944436010000000874350020140111782961104626444360062100008614450220501108679057042564443600877000050566251501011087276701059244436006890000651457517070110896450905775444360002600004298575170701109129728105921613600689112569974502212011157607011059204536008370309826831029140110877039609137444360083611258263290301401117455797105922173600839000059132503214011091922781059244336007820000489437026120110881912310592444360000000004865450220501109138417000006263600000048849124502205011164446340055444436004000000071445022100111753146400000444360019200000367450220301117526997)))
 (.node 2 (.node 1 (.leaf 5688444360089000006071450220701115953076035554443600982048861434502208011178790600122044436006210000520141024010111763816404408444360065600008894550180501109050397029324443600742000052096001601011091468640360744436008390000695055018010110922678900000514360063400005071450220801109019856105924443600689000063135751707011174597750610244436000260000420357517070110918023209819444360082829868899450221401108935033105922923600828000076215751705011093394150960444436008073429741745022140110950980310592362360082423427523450221401117634511105924443600790189588325251905011091211851059220636008372342844847521120110892113310347444360079306478451330281411109159167)
 (.leaf 488444360000700000367450220301115826694004884443600025000018694502203011173650880512544436000000000166945022030110944386205125444360084500002444450220701109252071007024443600170000018274502203011086811950355544436006130000838345022050110925833405200444360060500008800475211201109254929046104443600634000050674502208011171309940413844436006340000503245022080111636751904138444360096200005093450220701117418580068284443600689000054655751707011155976321059224132200180000636470012070110959036600000444360068900006313575170901116089267002384443600442000076945751709011089011110023844436006890000640957517090111598729310592444360079331638818450221201116371739))
 (.node 1 (.leaf 10592161360079025078781450221201116943970105924443600704135971744502212011180895161059200036007191585807329030120110972894410567444360080300008466330281211116240032000005223600055169257824502205011162844710166744436000070000305345022050111751120800000444360071908138036450220501116381344000004623600517064230934502210011174886430023844436000570000161145022030111721463300702444360094200004738450220301108981630000005783600293000047825501801011179886570244544436009620000507145022070111727985210592444360114100005272450220701109082847000004443600627000062485751709011095738891059244436008420000594755018090111745770706985444360001800005724700120101109317601)
 (.leaf 9451444360084424378968475211201115811420105922923600803108688655751714011094362230960444436008190000765652519050111776734610592206360082432068448475211201109010932105921613600704095170574502212011172300831059216136008252735688445022120111728373710592000360076618648461350271211117328070101314443600782134287454102412111097254050000044436000000461629845022050110948734600000626483000200002172450220501109164002000005684150293000059104502203111170783390512544436000041086384445022050111734014705125444360001600004222525190501109377128028504443601043000076544502208011162406161059241536006130000502950020010111771345604894444360066900008763410241201109128186))))
 (.node 4 (.node 2 (.node 1 (.leaf 2981444360106900005625390250801109649011057814443601141000065085002008011156066040000044436003660000779862515070110948926800238444360068900007556575170901117343056105922663600069000063997001208011095457461059213336008391448896165014010111016498010592374360087804488924600161201109520505096044443600799063188935751705011097251121059209136008363326861445022120111686098305697444360002800004662450220501118133811105920003600782044882042903010111096370080939244436008350000849135027101110936526509721444360083720959034675131211109529601105924443600835000087634102412111158568650718144436008451758584225032120111766890503374444360000400002342450220311109112307)
 (.leaf 5087444360000000000987450220311115712330051254443600170000031394502205011094630460140444436008750000838345022050111779592306023444360070400008883430231201109871149051264443601145000058933502701011100000500244544436008700000641045022080110940171000000473360083900007690650140901116121676105923313600682000073584502210011099920001031044436008791316902757517120111604840710592091360084534518488450221201109333706105921613600779246487634502212011091969641059200036007040291785825032101110932604910592000360082800008491350271011117450758000004513600020000042434502205011094849950000052536000000000367845022051110964940500000459360000900001076450221001116037809))
 (.node 1 (.leaf 238444360063902915802450220501109784777000004443600000000013724502205011094109010244544436000000000158445022030110930853906112444360095000005900500200701109304663044594443600634000023085501801011157031450523144436006821305861445022120110946780505643444360083200008870475211201117792355070684443600832000088004752112011162429321059244436006890000676462515010111005609704151444360114100007215450220701109317179000004443600790000075585501809011099534201059237536001860000646265014010110968794510592441360069831138555500201201109702074105922803600845411989435002012011096963601059208636006390000897460016120110950727810592198360077918207866625150501109713377)
 (.leaf 10592091360082835768678475211201116081139105920003600704142187104502212011161305821059216136007422595861445022120111783232110592167360068900004686250321211109563146105920000580828000062074502210111097673980879844436007990000872841024101111741049500000626360010400002138450220511109755353065994443600072044240774502210011090881290512544436000000000479345022051111578796905125444360006900002433450220301117586379051254443600170000024734502205011092767030023844436006860000492347521011110989924300000586360022600003175550181001116994996072374443600837000087454102410011179339690497044436011590000557833028010111005371701404444360068900006825675130101109745420)))
 (.node 2 (.node 1 (.leaf 4851444360114100007694500200701109746874105924443600848416285393502712011096535191059213636006820000895360016120110975796510592220360066404398998675130501115973275105923473600897000077645751705011174186691059234736008880000778760016050111773741210592198360068610488488450221201109449042105920003600742364488724502212011162179421059213436004670000673745022120110959693710592000360082810488801450221211117427762056964443600293117759763702612011098187720000044436000260612187445022050111024168901218444360000000001915525190301117448022000005174120664000056624502201011161457960702944436007040000895745022120111039612910592444360068900006407600160801117005317)
 (.leaf 10592327360068900006183625150101110072953105923273600689000061536251501011097506611059244436006640000551865014010111609693900420444360022600005626675130101115850004073654443600000000064717001201011169221401059209836006693383892852519120110994559910592347360076606057764575171201117572182105920003600719292585284502212011159669591059200036008350000763045022101110949272610592000360077929667420410241011109587591082894443600779043661434502210111103107420000055336000060000204445022010111562649603222444360033400004058450221001117320084000005813600021000005754502210011094273960439744436001480749181941024050110955818205087444360019213993218410241001109692250))
 (.node 1 (.leaf 5087444360082402785324370261011109211160030964443600226000040295251905011175292980000044436010280000748145022050111726165600000444360064300004296475210101110253523041214443600686074388184502212011100816800603744436008190102878343023120111021834005126444360042300007928450221401115463701105920003600689000077326501401011098853340541044436006890000647267513010110973589105125444360089000007969450220101110105860035994443600689000061836251508011100966130140344436001040000485270012010111655775306158444360050500005526650140101116140999102634443600682401787435002012011160982841059234736008032160653057517140111002021410592091360077139498528450221201109753643)
 (.leaf 10592134360076600008678475211011109670302105921343600777059783553902510111094224050944044436008030000880145022101111627917708155444360083700006071450221011116053234000005813600015000002964502205111171552940244544436002470273164339025050110956710905125444360084631328636410241401109762928071574443600790000088524752112111099543760000044436006890000615962515050111032261205125444360079300008076600160101110544360105924443601159000070923102901011103807840023844436006890000601362515010111610939901403444360068900006351625150101117625707105923273600400000052696751301011176412280592244436005760000580465014010111650669905968444360068900006528625150801115856470)))))
 (.node 8 (.node 4 (.node 2 (.node 1 (.leaf 10592254360083628036737450221201118117592105921633600803403683574302312011164673471059212238207420429883350020120110993180110592156360070407378890650141201109956316105920003600686387774174502212011176812221013544436006341766876341024101111778108910592000360083904298816475211011117413015104644443600779059060714502210111096588720000059036000150429202745022100110971656400000590360004800001160450221001109694883105923293600000010104364502205111170935570512544436001442281495945022100110946918806190444360062100004943430231401116243418000004443600709000079534752114011099933640458344436008350100886950020121111052303000000444360114000007106310290501110235608)
 (.leaf 3828444360114800006455500200801115701095014034443600898000067636501401011101554551059243336007792206795347521140111064028910592267360034122697914430231201110221690105920003600698375775234502212011179362991013544436006980262891645022101111769488910592018360082800006911350271011115964620055374443600283000044914502210111097590400396344436000000000259645022101111010455105488444360002100003033450221001117459422061904443600055010054374502212011157811970647244436000000000594455018050111765435100000444360082800005203475210101116261778080124443600835000089674502212011104436240000045636006890000564062515050111543086804797444360084200007259370260501110548344))
 (.node 1 (.leaf 10592444360068900006500625150501115914933069204443600689000054645251905011151618501059214236006891910866545022120111015611610592000360083734015788450221201117739037105920003600689329972354502212011098559631059200036006863299852845022120111551805510592000360078217408710450221211110253199097344443600742000089646001610111104592160915444436007420255889260016101111608926709362444360071900008763450221011110300584088374443600793000059624302310111174981220000060536000270000272145022100111765788706667444360056700005437450221011115780185051254443600709025549933702610011104264320619044436004230422479043023140111614294105125444360086505748210430231201110334280)
 (.leaf 444360085800007053450220501109921002000004443600617000050784502205011107443191059244536008350000861445022101111069416906814444360080700008976550181201110947926051254443600643000066605501805011162920620586844436006890000586362515050111687834210592077360063908618614450221201110988995105924073600621056284414102412011105877651059244436007191112858847521120111604785910592293360062315477865475211201116094328105921823600790235569394502212011111230141059200036007043212572445022120111753775610592000360070436077358450221201110645025102474443600643000089936001610111159195290944044436007140000881360016101111019605309148444360083500005467330281011110094654)))
 (.node 2 (.node 1 (.leaf 5691444360021500002562450221011115800286056914443600613000068705751710111103335160462344436000100000043245022101110964824404623444360000700001199450221011110135029050874443600000024559454502210011099955910512544436008350000857645022101111015077906190444360084500008112430231201109819528000004443600890000088724502214011109037081059244436008350000883645022101111055376308439444360086504146610450221201116397640041614443600689000060766251505011106872641059207736006132104883447521120111632655610592328360083718885833390251201110791272000004443600819365767374502212011175542050990744436008250000887760016101111076814205611444360074200008926430231011117703990)
 (.leaf 4926444360091540595102475210101110587781105920003600771000089295002012011162260900512544436006890000775567513050111032780110592444360068900005466625150501110944044051254443600714121984484752114011114308881059244436004130978756145022050111642246810592444360071910918292430231201110880699099074443600592023288665501810111109985950914844436007772326703735027101111588663305488444360083500006382450221011117442567054884443600170000058694502210111098876020791044436008350000617345022101111060148807910444360083600008818450221011110390397061904443600832009686193902512011107879550512544436000690000452445022050111610443905125444360021500005440450220501110433857))
 (.node 1 (.leaf 444360090400005380475210111110516161049754443600986009577655501805011165411220355444436006891082683447521050111043368710592444360081923198800475211201110549290105924443600742251976394752114011158341530897344436007792319866545022121111070967609729444360079002318885450221211110705348105504443600845000086703702610111154081570984044436005170000740143023101111056490009148444360048600007602450221011111316273080594443600799000087114102410111155330530805944436007040000601541024101111777432000000580360035700008781450221011111040766058004443600232000054404502210111157791030532344436006430000521545022101111739661300000444360093416894678500200101117580762)
 (.leaf 10592320360079900008763450221001110793235105920003600807022985284502210011161809991059200036008190000848845022100111084761903981444360079305396398475210501118339606009414443600835000057095251905011159664511059200020808280229861445022120111767095610592444360084400008499475211401110793498105924443600837000087484302312011108127361059244436007900000369452519050111108531310592367360078208328040475211401110805800105920003600828119587104502212011160814831059218036008453149879639025120111098356209881444360084829548885450221201115664470097294443600777130188184502212011107823611011244436006860229897460016101111573172010199444360085800008854430231011115571039))))
 (.node 4 (.node 2 (.node 1 (.leaf 9907444360062100008359310291011111126355101064443600467000088184502210111160913670984644436006050832891352519101111776548508165444360105200008288310291011110299234056914443600585000063824502210111106103690791044436008240000607145022101111075923906190444360010400004827450221001110518465051254443600858053985383902512011109733250512544436005170094812341024120111590223105125444360000400005958450220501110574280105924443600682082452764752110111106826350207344436008191492484747521120111100525510592000360077702288968475211201116050603105924443600689000059146001605011117965421059244436004770537620341024050111625068610592444360071912917710430231201115877423)
 (.leaf 9908444360084615868957450221201115058938105924443600617000089955002010111183713761045544436005670000853839025101111277463509148444360061700008619390251011111380538091484443600293000075504502210111180925860805944436005280093881550020101111079806608250444360033403988573450221011110154267072244443600232000051734502210111105704250472244436007140092478050020100111786874610592444360083720475196475211001115837645087924443600825039480404752110011108078181059200036008030000878145022100111127227610012444360068900928871430231201116098288096044443600803204783834502214011113777800617444436006561285428050020140111110662810592444360066905336984475211401110630092))
 (.node 1 (.leaf 9773444360079029618698430231211110891625105924443600601000090004502210111181584401059244436006130000900045022101111786021910297444360087713858912430231011115646893104064443600682000085043502710111158765210805944436008360000901267513101111139697608059444360036600009003550181011116479685088774443600232000087634502216111119539290842844436005170000866545022161111598922107207444360062300008848600161611110514688094624443600719000084924502210111159556830784044436008190000589443023101111549726706190444360083500008458390251011118005385051254443600617174570574502214011111312771059244436008360091457745022101111812702100000444360094000003437500200111110644729)
 (.leaf 10592000360083500008763450221001111596655105924063600669304075484752114011159972011059244436006892036786860016050111156974804148444360081925227659430231201117447163000004443600846196487253902512011108241700868344436008032475872539025120111120739210592444360074200008957450221011111236463098464443600709000084793302810111117592770887744436007710000894870012161111217318108813444360044200008665450221011115619659080184443600836000056484502210111154215340619044436008441169859739025120111139069305125444360013408118098450221201110820107051254443600936000088464102412011111275390512544436006433381852845022120111840920406190444360071905265144525191011115846572)))
 (.node 2 (.node 1 (.leaf 10592000360080705268252370261001111217509105922893600819052664264502212011185056710817044436006432147716652519140111806852910592444360068614626171410241401118518675053714443600689251271395751705011159693770355444436008350000815243023140111126641910592063360079037528528450221201115684818097734443600779325486654502210111112240661059244436007660000846135027101111591689709846444360058500008987550181011110841813064554443600613052684884502210111107652880645544436006170000876957517101111093057308877444360077100008880700121011110615013061904443600828038685773702610111120020420439744436007420806673745022050111592950810592000360069800008241450221011115742775)
 (.leaf 9604444360061719407929600161401116267325105924443600709179274444302314011176213240490544436006891038647360016050111104071804905444360068913567121550180501115410588096044443600621000050515501814011161954111040444436008620000901347521101111145749809846444360077900005266250321611116153276098464443600505000089685002007111178732060984644436005670000895847521101111171893609058444360046700008488450221611115136018105922713600839000057884502210111115448890512544436008240796796741024120111803189105799444360082402228020450220501116379758105921233600709325678384502210011112890571059233836007141252607145022121111231592010592300360082403767934450221011117612535))
 (.node 1 (.leaf 10592000360083200008501390251001111385817105924443600898288667225251912011180465250960444436006890914596557517050111625842810592341360082502228241450221201118041612099144443600714193351734502214011161391560693944436007903311881845022120111154165408620444360068209148942525191011111346234096024443600257000084604502216111108712531018644436003340000874350020161111165811010592000360079300008428370261001111636690105921683600836064488364502212011177430581059244436006893250792862515140111136555410592444360068241347795450221401115504714069394443600689051489785002010111164091071059244436007190000866545022071111617665310592000360028300008359310291011118017558)
 (.leaf 8059444360056707823609310291001110865995080594443600021000035164502210111108625901044344436002930000885247521161111626688610592271360077700008191475211011111575589049454443600116000044904302314011116241710675444436008243450681345022040111569318907511444360060130858438450220501115653373105920003600442000084384502210111116191791059200036008190902881550020100111204311206083444360068937057627500200501115435071083024443600505000086144502216111152194020952444436005280000548841024161111582936209652444360021500005564450221611110894749087494443600442000088014502210111159692561059227136008370000586445022101111841161506713444360058505104816430231201117516214)))))))))
 (.node 128 (.node 64 (.node 32 (.node 16 (.node 8 (.node 4 (.node 2 (.node 1 (.leaf 10592054360083500005724450221011116009732067084443600825089556624502210011159702371059219336008371319893145022120111814464610592219360082436997417450221201118482589105924443600617000068246001605011156395930592044436002930000395245022050111153518610592444360082800008241450221211117999335071584443600467131941204102414011184640770817044436007042461837737026121111816730607969444360089022678916450221401116024237105924443600413000081882903016111156885851023844436007040000889260016071111635759804840444360071412328763450221011118593885091484443600008076451704502210111110780330806444436000130000336645022101111126836309902444360068900007235450221611112364690)
 (.leaf 9652444360002400005724450221611111361789096204443600576000060865501816111156044401059224436000070000549847521101111591006508793444360081900004827450221001111716204105920003600689000088916251510011179279091059244436008370891879950020120111177975610592219360077110027358450221201111798649105924443600858021760584502214011184033290527244436007903296530550020040111590051110592360360082800008438450221211112572457081204443600929324362704502212011152202891059235236000601002348945022140111181252910592444360087015008507330281211111961183080644443600144100278543502716111158425740806444436005670000879941024161111220804909344444360013400006884450221611115418009))
 (.node 1 (.leaf 9902444360071400006010450221611118360093100584443600157000059304502216111115737280817144436007191103531943023121111591380910592072360054000008383450221011115746905105920883600835075088184502210011120692811059221936007422077752345022120111829628310592444360081921897872525191201112098046105924443600819301179315002012011162071930496944436008582018629845022040111602743406764444360068600004744450221201115874944105923863600283000022004502205011157675400484044436008194118855339025121111804325700000626476002502162528450221011111368710080644443600423000085553502716111117695150997544436007040000716652519161111575196508373444360089029828745410241201118620423)
 (.leaf 10592444360000000002944450220501116470970105921703600682062559584502201011161760091059262636002320000688445022101111183967110592258360065612067844525191201116085967105924443600682393567374502214011128548470709444436006980000471741024121111583927909235444360071400003489450221201112117948101604443600742000087634102410111164561001059200036008254012865041024121111182616008064444360001600002316450221011111624714080644443600825000090035501816111127782930806444436009800000863339025161111544742609841444360060500006117675131611111934489105926263600832193287264752110111116391241059200036008350000852845022100111158738310592444360068241796326525191401118363993)))
 (.node 2 (.node 1 (.leaf 10592316360066907408438450221201115752299099144443600664000047174102410111157967750923544436005580000294445022100111817742410592352360057603375078450221011112163194080644443600423000084164302316111119094570000044436005760000735845022121111626803310592178360077900805884475211001117735352105920003600835000087814502210011179171711059207536008351551741745022120111568704710592390360085809797602450221401116406071105921883600790061670304302312111121408380681344436006690000759043023101111811015403285444360027302123037410241011112088855103774443600698000089636251516111130453561059244436002320000876345022071111144859508064444360017600007902310291611113036157)
 (.leaf 8064444360001600008174450221611115542386084554443600505033686524302316111180261061059237236001160000440845022100111798001510592006137080709717303450221011112112442105920003600835117987104502212011119710280879244436006824047717445022140111602727210592324273082400007731450220711113260152099144443600669000043003702610111121092291059238736006340000696645022100111815465610592000360057600009004700121611112357163105920003600307117932934102410011179212240000057536001130334281945022100111185234408064444360017608528217370261611112480517080644443600779000089496751316111187337480806444436007710000898970012161111894668508064444360077100009023700121611118452518))
 (.node 1 (.leaf 8064444360077100008561700121611117834918080644443600771000085617001216111179571740845544436001760000866545022161111187280210107444360068200008836450221611112528548105920003600742000087634502210011123075991059234036007421270760245022120111885818010592158360066904746572475211211118390096074664443600621073046624502208111124160360842444436006640000876341024101111577885910592000360061329738567390251211112725850080644443600771000090117001216111158306210806444436007710000870970012161111613439908064444360077100008959700121611117908284080644443600793000087716251516111185417400691544436001980000838045022161111201803000000444360089010688864410241211112151968)
 (.leaf 8191444360066407305724450221201115921973105920003600585329584384502210111118644251059200036008350604880145022100111258054710592231360068908447495450221401112816844105924443600682311172974502214011186860711059211936008350208461650020081111854660907121444360043131887187390251011118072687090484443600714000087637001207111158823821037744436007770000902160016161111856688910592444360077100009044700120711113415503000006263600000000022414502216111118775880806444436007710000895970012161111799464008064444360077100008969700121611118036026080644443600771000086557001216111177063570552144436000000000702945022161111208849708584444360034100008698430231611115627990))))
 (.node 4 (.node 2 (.node 1 (.leaf 444360074200774488350271211112999249105922293600824151876024502210011158441330439744436007790000544045022040111894139709604444360068200006234450220501112949135105920173600656046234894502208111124680580042044436006230000607435027071111268972709048444360006000006670430230711112434287000006265000000000020054502210111119949530806444436000000000393645022161111229916405008444360000000006898450221611115289049066114443600000000038584502210011178264460681444436008280000743239025100111571735100000444360087206008912430231211118193201000004443600916000088314102412111180784650752644436007663950528141024120111596793410592519360064310518986450221211118764882)
 (.leaf 10592000360079900758899450221011113244203105924443600682094171164502214011126246040739544436000241739654341024120111583497804397444360022112517050430231201112707833071214443600698000084253302810111124077821059210636002070075883743023071111594177602445444360000000004904450221011118072842080644443600605000084555751716111157107710689444436003660000869741024161111269605207175444360003200008317450221611115724592057344443600664000046104102410111120098740681444436008450328840839025121111258951010592444360078200008383450220711117912674105920313600273000051964752110111158722111059251336008320205883645022101111269792810592187360083528047687450221201112965297))
 (.node 1 (.leaf 10592414360071400006542450221401119496070105923153600682000060714502205011183844091059200036006890074667739025121111248058310592221360010400004408450221001118386694087874443600113000075423902516111181116330000049936000000000158445022161111761599508064444360000300002295450221611118348744080644443600000000017004502216111178645670960444436006820826710145022040111893424510592444360083702042310410241401116291131105920003600709192944904302312111129210501059200036006230325856841024161111585333306983444360058500006891430231011115634108087874443600257113973003502707111122216751037744436000570000791443023071111279694910592107360023203257613450220711115625747)
 (.leaf 10592000122019215747496450220711115801897080644443600000000017904502216111178722950806444436000000000157045022161111565566706372444360001608264317450221611118036078063724443600232000085444502216111132373130000044436003840204478041024121111349167208536444360063900008728410240711115913931084694443600221000052875251907111157785961059244436006893768605845022050111355341609799444360058517858694500200711115660328105920001570689000058353502712011158477761059222136007040202760837026071111249356208775444360050500725169390251011112493416000006263600000000020054502210011179385200000044436000070000178045022101111228772706814444360077900007303450221201118418320)))
 (.node 2 (.node 1 (.leaf 444360087709278820430231211118741877093014443600930131589304752112011149158641059205536002210000831745022101111319651910592000360083503227370550181001118097338078024443600885238790004502214011180885021059203336001830000514543023071111261879906814444360005500003898450221011113438571105924443600828057773034502212011182224570000044436007772789883645022120111571910105397444360082433384651430230501115717843105920003600450069887104502210111182482061059200036006210321857345022101111298070110592542360083500008438450221011112726821105922263600835196675744502210011160648141059244436005852859881452519080111587401210592093360078218388968500200801118892030)
 (.leaf 7618444360080312247019370261201118607248104924443600442000065434102407111129782060877544436000250000404243023101111272327708871444360023200008252370261611112826150105923393600232000028474752107111126205380661144436002730000354445022100111574891006814444360066900004559410241201118353393105924233600682130076354502214011187795260767444436005923482877955018050111573305909995444360090800008607410241611115891279105924443600215000088014502216111184017371059244436006130320843252519161111288217210592000360030700008498370261611118588255105924443600273000088935751716111158045780769344436006210000820635027161111639474410134444360071400008187370261611112926781))
 (.node 1 (.leaf 10592160360000000005251450221011112774012000004443600069000026054752116011155027510681444436008720000377145022101111295952806611444360086200006869450221001115836643054964443600771000039664102412011182105490000044436008772703882043023120111268278610592000360034900004744450220711113119388105920003600682000049044502207111181120171059244436001480000899067513161111611644310492444360005700003139450220711112865652087874443600540000089597001216111162679730980944436000000000261545022101111549285110592111360078200003952330281201115965875053574443600000000030514502216111157138780119944436000140000328745022100111852599505697444360087011028992625151201113292331)
 (.leaf 10592377360078205498573450221011113640462096044443600664211523105002005011136351291059244436008071373231045022120111922590710592000360019200007763350271611113794634000005243600021000025604302310011130904730201044436000280067365645022050111618942905697444360088806848504350271201118298442000004443600888019785163502712011131504011059200036002211001802045022071111818839210592474360074200008710450221011118620462096044443600844174386844302308011191638581059244436006822715773045022050111577952710592426360089609038994575170501116484786087454443600771000079144302312111190349801059244436001000000894445022161111468860410592444360001900009044700121611116432488)))))
 (.node 8 (.node 4 (.node 2 (.node 1 (.leaf 10592444360023200008726475211611113696919097804443600176286084713702616111132918030980944436002320000808043023161111855459109809444360010000007050430230711113084708105920003600576079484983702607111132465150000044436000000000414245022161111316273503817444360000000007003450221001112751950011994443600104000031774102405011160400050426944436007790548854843023120111608353805697444360087103158938600161201113323743105924743600771249987104502210111135986831059206436006891931885345022100111890429710592444360023200008885450221611113643402099194443600273000053574102416111159549130980944436000160000819147521161111828111405105444360000000005515450221011113523133)
 (.leaf 448360000000002785450221001118344549011994443600000000039524502210011155593690569744436008700314872943023120111371028909657444360027300008614450220711116087843105922133600682000023104502205011156707481059240036008240544894057517080111353538107795444360090815139042600160501116106238088234443600664000075695251912111159956911059244436001920000659250020161111848236910592444360002400008991650141611116092476103964443600576000087795501816111132168741059200001507143314720141024161111909544810592444360023200008801450221611114419256096044443600033000033044502207111185989160980944436002320000871045022161111401681609809444360066413555448500201611118596121))
 (.node 1 (.leaf 10592000360000000005565450220711115904437105921113600777256289264302312111144103910960444436008031438883447521120111876749405105444360000000006774450221011113518736026154443600000000046434502210011134826900261544436000000000344645022100111578373803943444360000000003382450221001118517379105484443600221000088524752116111165011900998444436002830063846243023071111367207010592223360064300008781450220501115703808096044443600704043087625251908011160178501059244436005760990894155018080111863340109793444360036600006939450221611116122971105924443600164000068844502216111159639431059244436000550000901560016161111681252210592444360001900009023700121611116103973)
 (.leaf 10592444360002600008960675131611119136286100774443600134000085876501416111161083861059244436002570000853947521161111916095610492444360023200008528450221611118767547098174443600558000082233902516111162626900978044436005490000797837026161111870606910592111360000000004649450221601113213302038174443600000000041094502210011181958280119944436008070000323939025050111582794801199444360081900008567390251201116796368000004443600890263089054102412011153014961032844436002210191856652519071111352025909682444360023200008614450220711118924297105920073600839142483213302810011140351760631844436008390062890960016020111717743710592444360010000008976550181611116226222)))
 (.node 2 (.node 1 (.leaf 10592444360025700008813600161611116000197105924443600019000090477001216111170808441059244436003660000852845022161111464144610592444360023200008241450221611113731562104924443600215000087245501816111186723420917144436001440000462339025161111553979401199444360083200007885410241201117079762079064443600060018938114502207111160461790817944436006983796896655018080111473827007809444360046715719036600160201116234812078324443600669076682285251907111157874500914944436002320000616745022161111600625010592444360002100008949675131611116003709105924443600019000090477001216111195561591059244436003660000843845022161111429777810592444360022100008263475211611118602415)
 (.leaf 10592444360023200008763450221611113788584105924443600634000088984752116111140340091039844436002150000848845022161111898895709233444360070900618268310291611116757701099694443600020000074785501816111159848431059244436002570538868537026121111910585004679444360000000002869450221001118225360000005833600000000027054502210011156386220426944436007420000411335027050111408113610592013360070403078498370261001116438814082564443600592076290216001608011185895401059244436001000000896745022161111933864010592444360019800008374625151611115956513105924443600232000084384502216111190868381059244436006390000850139025161111632363108601444360019800006966410240711115688717))
 (.node 1 (.leaf 9809444360010000008499475211611116043133101734443600100000088315501816111187874201059200036000110307763947521071111619430810592218360068200009000450221211116301343105922183600709087786654502212011160783360467944436004230000540945022101111352059701199444360078201888223390251201116451639042694443600742006083213302812011189448290635244436006890000451031029050111850171709762444360047726988396475210711113537607079064443600837000029444502208111142319011059244436000280000796860016161111656081910592444360001900009028700121611115724455104854443600232000084384502216111163071961049244436002070000853947521161111438254209969444360022600008553390251611116111291)
 (.leaf 10592444360011300008968475210711114434678000004683600832000027394502205011160577991059200036007090645849837026101111587037809260444360011300006927525191611116132607105924443600019030489636251507111152135751059221836007040000883743023050111922447302445444360084200008226310291201113924527105926263600848000084613502710111139085451032244436003660000831745022161111578722110592444360001900008284700121611116211474105924443600273000089764502216111165059101059244436003840000887245022161111939377510330444360017600008455575171611119077026101284443600144000067335501816111165570241049244436000190000811367513161111869405910592444360071400578879550181611116361884))))
 (.node 4 (.node 2 (.node 1 (.leaf 8864444360071400004422350270711114232175100594443600567000073533902516111188028901041344436000160000864960016161111467257310592444360001900008992625151611115034596105924443600019000090146251516111163026690000058336006820000259645022050111567222503817444360006000002739450220511118351983011994443600689000046153302805011163311720426944436006860000438433028050111452661805153444360064300004032330280501116086521105923683600601018484884502207111158666231059200036008360000876345022101111881070710592444360040000008710450221611114199848105924443600400000083834502216111160841261059244436000190000787070012161111437656010431444360001900006765700121611113777899)
 (.leaf 10592444360001900008518700121611119760725105924443600019000090497001216111160553601057744436001700000864960016161111879186110577444360014400008724550181611114697522105924443600170000083254102416111155289710900744436005670000424437026161111608824510592218360082416198993450221201116365484105921143600442000022364502210011154724670000058336005580000682645022020111420688710592444360011600006791625151611114642794105924443600366000090124502216111146049301033044436003660000790945022161111503133610592444360021500008780475211611119137579105924443600136000088795501816111160276061059244436001860000865652519161111479200210059444360071900008633390251611113936235))
 (.node 1 (.leaf 10413444360002000007838450221611114074952105922183600777005590064502212111148469991059221836008240183900045022120111511698210592218360077900008976450221201119249757011994443600643030044463702612011140640450221644436006890000650933028120111467446707598444360022610449012450221211115991559105922723600824000035014752108111144900840925144436010841533903352519120111426486710592444360056700006641450221611114110873105924443600384000078444502216111143948031033044436002150000648350020161111891342309367444360080300007154350271611115929803100264443600002000073034502216111159878891059244436006980000813750020020111626697100000559360068200002127410240501115705600)
 (.leaf 1199444360058500543202310290501114275695042694443600766000049443502705011194135570579844436006820525419033028050111908408610592444360001900009033700121611115434288103304443600072000059584502216111147804171043144436002930000697250020161111941065910592444360022100008678475211611114333628091914443600007000054735002016111158758241059244436000330000877162515161111623057410592444360006000008566525191611116497984105922183600803018063984752112111153289651059221836008240053898645022120111535698010592444360087104129019500201201119254379105924443600799000078854102402011152734840000055936006820000574441024020111599585504269444360077900006327330281201116709859)))
 (.node 2 (.node 1 (.leaf 10592000360071433688098450221011114615560103304443600341000074954502216111159375951059244436000550000902467513161111482162910592444360002000009033700121611116347204105924443600104000089916501416111154748141057744436002320000617055018161111406144410577444360014402967683550181611116236869105924443600134000084884502216111161818591059244436003490000892460016161111605696210458444360001100008528450221611114619881105920003600247000075705002007111157711161059254636008240179589539025121111875344910592218360071901798993450221201115222734011994443600601000029713302805011157228570422444436006820000544833028080111637358102808444360082407366642370260801116101929)
 (.leaf 7642444360051700009008500201211116328640092054443600698000042574502207111146466941004444436000550841730345022071111461666810592444360036600008916450221611116051483105924443600011000065624502216111162140751059244436002470000729745022161111590501410592444360001900009023700121611119548642104204443600777000083923302816111159323810994644436000060178838345022161111953865210592444360023206309013475211411115912180105922183600742000067882903012011159784770422444436007820178471835027050111625426809204444360080713665455430230811114985573093284443600845000080204502207111158549120985544436008530000889041024121111591637010592444360029300009033525191611116314380))
 (.node 1 (.leaf 10592444360036600009017450221611119057921104314443600617000061847001216111164018501059244436000190000903770012161111942104010592444360006900008402675131611116660597105922183600698029370433702612111161111301059221836007140176659927031121111594292910592218360068600008213500201201115916178105922183600682005078295501812011160491040848244436008480050860237026120111473194209467444360086700008501390251011116422964105924443600423000085205251916111190313751059244436000000000663147521161111922264410592444360042300008052525191611113340320105924443600634000063044502216111143649901059244436000720000903960016161111960495710592444360023200007680600161611119280369)
 (.leaf 10592444360023200008557600161611116343389105922183600601000073214302312011153781060422444436007090000477931029080111480068410592373360002500004286350270801116260290063214443600870083560283102912011145729581059244436003660000645845022161111445873800000559360070400005233410240201118838629049614443600627000031783702605011190105001059242536000210000531435027080111550942904224444360036600005318370260201116242902019934443600322000057113702602011191059320945244436008580000294445022081111601886210592444360018300008148650141611115796081105924443600221000079864502216111163357661059244436001360000805355018161111621757810592444360019800008892600161611115082324))))))
 (.node 16 (.node 8 (.node 4 (.node 2 (.node 1 (.leaf 10592444360011300008587650141611115971938102314443600771000088237001216111160634461020144436008070000876341024071111916622310592444360043105128879550181201114541685105924443600634072789934502212011164031871059244436009320000369041024020111584915303554444360060102897500370260201114972460094014443600853062086074102412011192198261059244436002830000903755018161111959097310592444360040000006610450221611118767568105924443600116000086144502216111186911441059244436001570000887760016161111926959110592444360028300007655550181611119707869105920150980824028889934502212111159077341059201027708190000893145022121111957150310592165360074200005831270311201116274187)
 (.leaf 10592444360085602888514370261411116062738041314443600605000039663702602011145674641059242536000600000681937026080111497781110592444360002400007904675131611116322548105924443600226000090436251516111191740071059244436002320000903660016161111576192410592444360019800006323575171611114941651105921173600018000067554752108011153012481059244436003412890891645022120111613373110592444360068200006465390250801114637139105924443600003000066984752116111159568571059244436004000000898645022161111546677210592444360028300007820450221611115836916105924443600183000090436251516111192796621059244436000260000902662515161111509148610123444360076600006877575171611115768369))
 (.node 1 (.leaf 10592125347029300008178500201201114726351105924443600879000086553502712011157660220274544436008480000614445022020111622448105376444360062100006483500201401116709232081704443600170000042574502208011158066361059244436000190000905170012161111870195710592444360001900009052700121611116071848105924443600283000065834502216111159999741059244436003660000766045022161111632814610592444360054000009045675131611115740593097254443600017000051024752116111191120191059203036008390396484931029141111499894010592046360045001686906310291201115734901016404443600682000039863902502011159294781059244436000550000905167513161111573659710592444360019800009047625151611116189339)
 (.leaf 10592444360028300007795450221611114853034105924443600366000090174502216111156707731059244436003070000774245022161111616318410592444360014400009030650141611119312599105924443600486000090426751316111164858901059200036003490000713957517161111579214910592444360014800009030650141611119333555101234443600790000071995501816111190851581059244436005670000894252519161111568217709914444360098200005231430231211115264966105924443600019000090497001216111158834211059244436000000000645845022161111589387010592444360023200009015600161611115817443105924443600164028154785501816111160300051059244436002320000726357517161111588282605446444360068201666483410240801116301546)))
 (.node 2 (.node 1 (.leaf 5446444360068200004687390250201115097096043564443600682000035353902502011153248100795444436006050000882539025020111661527910592444360018300007931575171611119380356105924443600060000090085002016111198533891059244436000090000798645022161111603478310592444360001900008074700121611115920513105920003600232000085576001616111155209771059244436000570000546452519161111582733210592444360018300008208600161611119163110105924443600689000084727001216111141950881059244436002320000852052519161111503670410592071360077100006574330281201115303038105924443600113000080926251516111157494611059244436000190000905270012161111579771710592000360036600006630450221611116043153)
 (.leaf 10592444360023200009025525191611119979962105920003600232000076235501816111145816291016644436001130000787070012161111672387710592287360077100394983290301211115053850105922143600198000064834102408011153317871014644436008700000618043023121111541962609080444360083600008809390250211115448583105924443600019000090497001216111204191591059244436002320000812867513161111572321210592444360000000007893500201611116112749105924443600000000078214752116111160224341059244436000000000735845022161111965793910592000360023200008515600161611119754624105924443600450000076287001216111164176201016644436002470000802667513161111620677807379444360064310778325410240801115706170))
 (.node 1 (.leaf 4538444360083501628650410241201116029701088594443600845000089934502214011163162201023744436004860000891547521140111641847407453444360087107068890410240201115435053105924443600366000090174502216111160706531059244436003660000901745022161111569034910592444360000000007574450221611115887534105924443600013000074246251516111158246471058244436002320000846350020161111545093410592132360045000007097600160801119239142059414443600771000084874102402011160336960622644436004770000442235027081111526410710592444360001100009049650141611119793995103674443600576000088515002016111157280161059244436001040000819067513161111424314510592444360046700008078625151611115455745)
 (.leaf 10592516360071906015137290301211119162695105920003600686000056303702612111158167950991444436007090000564543023080111565068710592000360068212436949430230801116158761105924443600176000088916251516111163911201059244436004770000726867513161111589720610592444360058500008126700121611120012991105924443600617000081847001216111165755661059244436000210000905170012161111579986410592444360023200009051675130711119288589105924443600019000090527001216111162914711059244436000150000904867513161111605277210592000360077928198897500201401116027950105921813600793000056534102408011155210730439744436006690000818737026020112016026410592444360058500008184700121011116184320))))
 (.node 4 (.node 2 (.node 1 (.leaf 10592444360001400009009575171611115853111105924443600008000090366001616111157704481059244436005850000905170012161111600069410592000360052800008966550181611115937180105920003600779015751372903012111188666101059200036000210000790665014161111505225010592444360001900009051675131611119501205105924443600013000090496501416111197414220902744436004420000538143023161111580514609791444360023201568595575171611115570065105921543600896038188534502214011156921490706544436007190000819241024140111674404910592000360002700006886650140711116016807105924443600643000090355751710111157007021059244436000150000860460016161111970489710592444360046700009052700121611116136620)
 (.leaf 10592444360006900009034550181611115736039105924443600183000089105751716111151080351059244436006390000846860016161111924414508889444360023201558865575171611115749249094334443600072000089226501416111157610461059223436006210155718541024140111576319106155444360063413797050430231401119789445105924443600134000089516251510111152919301059244436007660000902952519101111597826710592137360002100008989700121011115636151105924443600060000090355751716111160592961059200036005760000858455018161111927086010592175360069803785313350271211115052487105923543600872015486463902514011151296910526944436006820000586545022020112013329706058444360060500008614450220201115820731))
 (.node 1 (.leaf 10472444360058500007711575171011115360960105920003600341000060395751710111153773051059244436000260000894967513161111576482310592118360032200008763700121011119295145105924443600060000088136001610111161143231059200036002830000527357517161111605610908997444360045000004400410241011115732856105924983600698003053133502712111189863850853444436004230267552439025121111531020010592444360059200008998675131411121264852105920003600423000077655501810111192110191059244436000640000904362515161111597766710592444360024700009007475211011116260068093234443600719000083174502216111158810060415644436007790000706041024020111618857910592118360006900009028700121411115411304)
 (.leaf 10592444360006000009021600161411116174762105924443600136000085555002014111195554141059244436002320000883155018101111606965410592000360036600005455430231011119013294105920963600824000085593702612111191598951059259836006890480889945022140111932486310592444360082502648683410241401116033975105920002170613000069544752109011154474941059200036006050000760147521090111917999410592000360047700006170550181011115307161105920013600634000086504102410111156901591003244436000600000892070012101111606006910592626360071400008263290301211120028362105920963600450000029835251910111156285200884144436008530689879639025140111580121804156444360071900008585390250801119397956)))
 (.node 2 (.node 1 (.leaf 6685444360097900008745410240201115960825094174443600366000084773502714111175782461059200036006690477889945022141111582307210592184232064300006394525191411115409327105924443600148000089755751710111162151891059200036000570000651943023101111587060109999444360003300007588625151011116237800104714443600060000087097001210111161294950960444436004670000891155018101111593130810592626360071900008342310291211120820956097094443600682047773854102414011156401970884144436008580000881647521020111571806410592076360052800007591500200901120142957068144443600917000070574502214111159778081059244436006430000776652519141111522618310592444360069800008486370261011115836451)
 (.leaf 10414444360006000008875700121011116344642086604443600505014749464102414111155803440467244436004670685725441024020111769058710592035360028300007618525190901119773904105920003600585000068134502209011162499261059210936006641431588265014121111946454210592256360003302609021600161411115882605105921083600273000071576001610111156917921059200036007710000633335027120111572272510592444360065611307495410241201115610352105922043600799000074984302314011196665471059214536004230000763045022141111564701808170444360054000009005675131211115197916094604443600793000086953902514111160678701059210836000600683899770012101111610064408467444360062302598897500201401116182931))
 (.node 1 (.leaf 8769444360079900007661350271401115948309105920263600366000065424502209011158302771059200036003660000654245022090111916945910592108360002100008937625151411119735213105921083600057000090517001214111196444521059210836000600000905270012141111989095510592053360061700008385475210901116088596078964443600442000083514752114111167111141059228636008620143675457517140111559921310592176360068900009019500200911119762758105921763600341000089875501814111155856681059210836005670000903352519141111581872909604444360071400008359310290911115987870105334443600450000083174502216111160483590971644436009620000865535027020111721860810592444360023220138666390250801115293373)
 (.leaf 10592000177076600004675370261411115860490105921083600682000085553502709111192983900854044436006340000842533028090111587455806297444360087200008727370260211116177435105920003600617000074335501809011154046351059236307805670140863543023090111618958010592108360059200005996370260901115834517105920003600875000073393302808011196408421059244436006390000867847521161111578754310592444360023200008152430231611116057232105924443600232000080984502216111158312320355444436008910000860237026090111942587809496444360032200007075475210801116160385105921083600592000060553702609011194554871059210836007040000830433028091111594198810592000360071400008406310290911116083568)))))
 (.node 8 (.node 4 (.node 2 (.node 1 (.leaf 10592000360054900004350350271011115879518083504443600020046573034502202011156409911059200009305850000774147521080111915911210592000360051700007718450220801115334287105920002860423000089774752109011189501691059200016007990000901055018090111579362610592104360052800008656525190811115740954105926263600793000083583302809011159491991059200036006560000700035027100111934887606868444360038400007660450220201119630567105920003600766000071665251908011158332531059200036008320000765847521140111590061110592000360050500007495450220801115334419081704443600643000078405751714111192167731059262636007140000842431029090111960168810592444360023200008781450220711115849549)
 (.leaf 5143444360054000008538390250201116030031035544443600877000085643302809011198143000355444436007930000897143023100111608599707384444360036600007932550180201115969491105920003600605000077684752108011157642231059207822606560000755243023140111911149610592000360003300008954575170801118995871105920003600714000083593102909011198284240834844436006640000426439025080111542655610592000360080300008404350270711115697888076134443600819000082194302314011158754650960444436006560000375335027020111929777003554444360063900008890410240901115984685049374443600000000072354502202011160860331059220136007420000765750020020111603796710592444360056700009039600161401115499257))
 (.node 1 (.leaf 10592108360046700007820450220901119042289105921083600467000079094502209011159721811059259236007900000849837026091111599202910592626360077900008425330281011115731893105924443600170000089314502216111158681560355444436006230000886441024100111601230306775444360079000007687450220201119970001105923353600682000077395251902011189860790916644436003410000904665014020111508932309105444360060505668778390251401116035117105920283330467056675744502208011191806941059200036004670000839852519080111598974110592626360077900008341330281011115702172105920003600664000082953902506111193694711059244436002320000900250020071111616050210592444360087112738670370261401116182317)
 (.leaf 3554444360046700006924430230201115704719069304443600467000072364502202011160427480597044436006210000689337026020111584589907608444360052800009012450220201116811173043554443600943000087443702602011164216600712644436006891114874437026020111643367505638444360105400007889450220201117042810096984443600334000089934502202011171405791059210836005490000705745022090111585456810592626360078200008554330281011115830337054774443600828001286684102402011160524510355444436005170000853437026100111614028906930444360046700006737450220201115718413098234443600576000090305501802011164728670789644436005580000807665014020111595211509380444360074200007893525190201115873995)))
 (.node 2 (.node 1 (.leaf 10592444360046700007820450220201115223820105920003600467000082004302308011159314601059200036003570000763143023020111594371810592126360044200007420410240801119812920105922523450431000082764302308011193511001059200036005050000780937026101111568918003554444360058500008962430230901116013385035544443600486000068844502202011158269881059226136006130000729745022020111602391210592297360004806638739575170801118891256105920003600384000054884102410111157002201059244436002260000903352519071111967775402442444360112917849000450220201117755126060104443600832000086403702602011169389200512544436003410000522145022140111974987203554444360054900008523370260201116591728)
 (.leaf 6535444360043100006411310290201115751921105922973600477000070553502708011194708131059212436001830457821155018080111898240010592000360046700006930310290201115963000105920003600467000071203102908011193186840301844436002070000511443023020111597781808793444360061700007687450221001119507278105924443600467000068572703102011157727870681444436004670000673745022020111599276310592000360046715456982310290801115756315096044443600247000071164502209111158109140501944436008700000841929030020111706401203359444360111000008871430230201116059612056974443600247000069113502702011158001100277044436004670000693031029020111603882107437444360046700006945310290201115974103))
 (.node 1 (.leaf 10592000360046700007023310290201115556214083484443600357000084384502216111158898140934044436003340000573947521071111567705010592444360030700008633390250711119362195039264443600664000086144502202011162281290353444436009340000869741024020111611721603554444360056700008625370260901116229354000004443600486000066293502702011162184650355444436007710000733739025020111598849708793444360050500007742450220201119524861105924103600467000077184502202011160102720472044436004860000900045022020111576192604720444360046700007756330280201115829791083484443600423000084884502216111158497400531844436006820000711339025020111583029603597444360098000008564330280201116805019)
 (.leaf 3554444360048600007987390250201116550309069354443600467000075504502202011162311900394644436006820000856739025020111613199505861444360041300008930475210201115731090071634443600247000474535751702011160673440472044436006430000901745022020111607385510592626360070400007207500201411115704749105924443600686000059194102407111159093761059244436004230000887245022071111938362401403444360048600008298450220201120031688045754443600477000077294102402011158343171059233236004670000690631029020111587617710592079360046700007385410240201115289672047204443600467000066733102902011159997261059244436004860000868443023071111581205610592444360034100008854430231011115849041))))
 (.node 4 (.node 2 (.node 1 (.leaf 444444360114618939017450220201116454119006974443600486000088164752102011202311890069744436004860000885247521020112002515809604444360060100009007475210201119825582105923233600486000089934502202011192489320472044436007040000900645022020111576931804720444360046700007493310290201115945369006974443600486000088984752102011201723340578344436004860000902347521020111637261009604444360048600009023475210201116170027105920513600467000068323102902011157787491059232236004670000688931029020111921531704720444360092100009029525190201116213609000004843600901000090095751702011164465380472044436008190000894445022020111608709904419444360099900009000450220201116065155)
 (.leaf 5213444360041300018815500200201116269183055334443600689000075674102402011166569050000044436004860000876139025020111995324600000444360064300008981430230201116201936006974443600486000083514752102011160912890879344436004770000710635027020111622024909604444360044200007753390251401115805853103694443600247000061734502210111159464620435244436009680000900045022020111634001400000444360054000008642350270201116367692024454443600486000090234752102011163250340754144436004670000687231029020111959282710592000360047700007024330280201115782412047204443600714000089574502202011159867510472044436005850000899447521020111946026901403444360046700006872310290201115871613))
 (.node 1 (.leaf 10592444360029300009033525191011115699710052214443600605000087814502202011167288270728744436004860000724435027020111585958910592000360047700006962330280201116040866105920483600549000077694502202011197806980244544436007900000902655018020111980100604720444360048600008976450220201115908375047204443600486000090456751302011190673600472044436005280003902655018020111896560900000444360048600008840390250201120061835096044443600777000090174502202011165520570843944436004860000785535027020111572609607148444360068900009000450220201119756286105920003600505000079524102402011161628400472044436004860000905167513020111594976203309444360036600007321430231411118970095)
 (.leaf 4598444360069800008697410240201116268846075644443600779198981292903012011160544020000056236006390000860237026020111984505507148444360083600008981430230201115893404033094443600558000045594102414011158249230330944436002150000733739025141111541800709528444360019800005648450220911115903617103694443600232000089874752110111161421390628144436006130000888545022020111597810207148444360048600009018475210201115839497105921743600486000089584752102011193783690756544436007660000900747521090111589692609593444360063401279009575170911115852651070604443600576000076854302302011160487300140344436004670000703235027020111981302210592073360087800003615370261401116073821)))
 (.node 2 (.node 1 (.leaf 5632444360061300008864410240201119564013069734443600845000089944752102011158844270501844436010370000901055018020111571588605359444360101400008971430230201115828196000004753600664000085143702602011163849680000044436007770000901745022020111986885400000444360071900008981430230201120154024105921533600486000090184752102011159491630472044436004860000903467513020111522009506181444360099800009008500200201115822270080544443600567000090436501402011160074340128544436010300000654245022020111652813401285444360104600008818450220201116549809000004443600540000090064502202011160523230000044436004860000901745022020111964236105697444360084200008962430230201116029566)
 (.leaf 5697444360077100009012450220201116089074105920001180486000076854302302011160507241059200021600210350832952519090111590897201403444360046700006381330280201116057202032244443600719000085343702602011164126100000056236006010000881845022020111992576205697444360048600008994475210201116262895105920003600486000088335002009011158182520527344436004860000788541024020112056544210592444360048600008949675130201115070144105920733600467000063813302808011200252911059207336006010000898852519080111592510608462444360032200008388410240911119671522099684443600293103289405751714111161417700794144436005280352762157517071111590361710592000360059200008635430230901115639300))
 (.node 1 (.leaf 10592000156056700008871430230901116016665105920003600400000081524302310111163329730345244436006560000853437026020111668597905125444360054000008896430230201119601032002384443600486000087804102402011161397420042044436004860000898143023020111988612401660444360048600009017450220201115909933000004443600486000090234752102011196809250978544436003410000798447521140111924410710592444360019800007061600160801115300724012324443601083000089394302302011209223311006544436000000000802045022161111562666800000444360048600009013475210201116205209056974443600486000077414752102011160943271059214436004670000687231029020111590005810592000360016400008878575170901115888457)
 (.leaf 10592626158004800008175550180901119295334105924443600144000089545751708011158905811059207336005170000757247521081111585717804622444360083200007613450220201116113478000004443600486000089944752102011163611110843944436004420000542141024091111585845510592444360014400007797625150801115476373056784443600540000086423502702011162974460395944436004860000902347521020111965576100000444360048600009013475210201116522540056974443600024000078666251502011194599470960444436004670000680831029020111582311110592444360046700006832310290201115766562105920803600069000077195251909011157287871059214915905920000532639025091111568133609878444360046700006036430230801116015905)))))))
 (.node 32 (.node 16 (.node 8 (.node 4 (.node 2 (.node 1 (.leaf 10592549360052800005276475210911119107689082614443600613000085143702609011194897821059244436003070135839231029140111480989305420444360109900009012450220201116007226105922813600247000070743502702011197654211059208036001980000823057517090111593729610592444360062703587285410241411115863266105924443600400000086415002008011193709701059244436001440000837462515080111565803510592189360046700005711370260801115529075105924443600467000060123902508011156507060472044436004770136892852519080111576756408607444360056700005739475210811115992120046224443600558000086953902502011165071040476144436007040000850139025020111625660202445444360048600009023475210201116285201)
 (.leaf 9590444360034100005900500200811116234841105924443600467000060123902508011157419051059207336005280000878145022080111891386110592212360063900004699500200911115819782037034443600793000085343702602011167821660000047536000000000330445022101111524669305226444360048600008699370260201116276688105922963600517000071603502702011157023101059215536001570000824960016090111904527010592523360006400007684525190911115272676098914443600639336685843502714011163993300935844436002210000886852519081111581616510592444360014400008482625150801115737523061904443600601000084414102408011159000070584444436011410000901745022020111578810207521444360022600007953475211611115569357))
 (.node 1 (.leaf 562360034900005507370260201116151231024454443600576000090064502202011164818310244544436004860000753939025020111662178109643444360059210428898475211011115860431105921893600144000083746251508011153250351059218936003490000775447521080111569374710592189360034100007925550180801115388236105920523600232000087795501809011193805390323444436005050000890541024020111618298204034444360048600009006450220201116820824105926263600198000083115751709011152016150874644436003570000685450020080111933560810218444360085800009007475210911115358827054544443600682000087253902502011164726710498544436008240000744341024020111600608306190444360046700006832310290201116212133)
 (.leaf 10592444360043100008499475210801115912990105921893600477000069034752108011155402201059207336004770000741152519080111571663210592073360051700008437350270801119369841058364443600682000088093902502011159481000801244436005280000711033028020111976169203229444360019200007689500200901115714759091384443600719000085463702610111156558670874644436005170000888545022080111570990710592073360048600006105625150801119383212105920733600766000082374502208011157236270439744436005400000854133028100111961949804397444360054000008555350270901116153296083244443600698000086193902510111157778591059200036001830000740143023080111599083503554444360082500008799410240201115872672)))
 (.node 2 (.node 1 (.leaf 10592444360063400007494330280901116175633105922332700283000088764102409111158373720715244436005920000876345022091111939723310592444360066901458944450221401116078488105921893600549014587716251508011157092521059208136003410000871045022090111576238108792444360062300008803430230201118896882105922373600283000086504102409011155802420874644436004420000819147521080111942889009669444360028300007086390250801115559373092344443600639000087963902502011198932760923444436006270000882539025020111634989506190444360046700008425330280201115785073084384443600467000074193302802011188953731059202436006390000595939025091111587976110592038360087000008984625151001115689132)
 (.leaf 10175444360022100007344410240901115668710000004443600000047777314502210011156563150000044436000000000525145022020111612391309234444360071900007776370260201116346267035544443600540000089204102409011156063621020644436005760000879941024090111945158806815444360046700007362330280201118816180105923993600467000076223302812011157825531059202436006430000538639025091111549826407950444360064304777710430230711116481687105920383600366000084686001608011154009481049744436005920000843931029091111653145800000444360001300002615450221011115347121105920393600170000087804752109011152051521059203836005170000842767513080111529728910592081360054000007210430230801116008518))
 (.node 1 (.leaf 9669444360042300007228410240801115941178104084443600605000089955501808011156030870000044436000000265294445022101111899081910206444360060100007569410240201119180064087924443600605000082984502209011188024481059200004906270000742143023090111946180910592000360064300004675370260811119376194102064443600567000089394302302011154392591059200836006980000740237026020111946576110592366360050500006944330280201115979053105923983600157000073054102409011194361021059234536002830000594141024091111552813910592038360063400008572625150801119098282105920383600486000084186001608111192350461059208136005170000869450020080111589693809816444360034100007187390250801115503751)
 (.leaf 10427444360036600008854430230911115764341105924443600221000082164502209011156025761059239736004670000521450020081111593481210592000360038400006457475210811115593378105920003600198000080375751708111154163721059201236005580000807862515081111573593310592140360019200008374625150811119278326105920813600442000071354502209111156636651059200036001830000836650020090111603050210592000360017000007845500200911115481002000004443600116000072364502202011160015231059241336003410000788541024090111544000610592000360068900005251450220901115876365105920813600283000044765501809011189173361059244436000000000745357517071111594178108200444360098700008931450221001114073035))))
 (.node 4 (.node 2 (.node 1 (.leaf 10592000360068910648711410240901116099115105923513600060000081965251909011155823690887344436004000000746541024090111615684807816444360083200004662450221611118457103068144443600627069987644302309011163469410909644436000570000524955018161111583951810592012360059200008389650140911119694152097114443600293000076014752109011197549431059244436007660000858233028090111590635007439444360084800008595350270201119884743068144443600807000089624302308011159997621059262636007190000881441024090111611408110592304360034102725357410240811119393303105921403600870000089516251509111193366331059208136003070000442147521090111916388308075444360045000004544650140911115184971)
 (.leaf 10313444360034900008670370260901115814016105920213600656000061103902510111156573071059205736008420000791150020091111938153710592444360080700008939430230901115567032105920903840450049165212903009011190536411059231136002830274759441024090111528359709505444360024700008986575170911115596071095054443600450000088776001609111160618270807544436002830000457745022091111577595409842444360018600007891550180801116759263094854443600639000071744502209011160967571059215036001760000635852519071111585012510592444360044200009000450220911115805256105922103600477000070763102914011164400790950544436004230000889260016091111610641210592129360014400006454525190711115962504))
 (.node 1 (.leaf 10592444360019200008941550180911115595983105924443600283000089955002009111152047830681444436007790000898645022090111547475410592067379046700008697410241401115927242105923373600366000069443302809011157626081059224236002830494730541024090111951395010592444360056700008986450220901116385475105920813600322000080825251909111158260161059244436004770000818470012071111536163407439444360029300003124430230711115029425105922463600283000074204102409011153123771059228436006271674648233028090111919209709505444360060500008321330280911114910328105920003600505000088695002009111149709601059244436001340000787252519071111514495410592444360069800007462370261011115950814)
 (.leaf 10592444360065600009006450220911115953031102064443600799000089856001604111155399840979644436007930000882043023041111576434506814444360080700008981430230901115517604105924443600431000087896501409111149071891059244436005170000904460016091111554283208670444360017000008539475210801115771220082794443600357000065925002009111154869211059244436005400000902850020071111591835210592444360058500008926430231011119357579067934443600423000035884302307111156446750979644436008070000900645022041111499027509937444360028300007157600161611115803370084794443600486000046995002009111156471441059200024201480000852052519080111572861601888444360062100007029450220901115686169)))
 (.node 2 (.node 1 (.leaf 4992444360077900006388525190201116239717105924443600592000081847001207111149304311059217136004000000648350020091111539420208460444360044200008993450221611115154033105922273600771000084493102904111150517800681444436004310041766045022090111906026209430444360000600003821475210711118952471105920123600341000088475501809111158589101059244436003490000873957517091111491475410592444360005500006725575170711115002077105924443600322000066826001607111148952871059244436000210000801457517071111603186810592444360020700008074550180711115859279032424443600837000090396001604111149663861059200036000480000888152519090111510191710592310360006000008913525190901118675087)
 (.leaf 10592337360018300007060410240901114997450105920003600714000047644752107111147495981059244436003340000853255018071111496922610592444360004800008994575170711116102030105924443600032000079286251507111150718081059244436006980000869937026101111512751803242444360083700009032600160411114963056105924443600334000086715501807111189801581059244436004000000904260016091111584885008479444360048600005326390250911114973376061914443600643000045164502209011193383741059200036001570000782147521071111916570606793444360000600004408450220711115709173105924443600837000090326001604111151141591059236436004670000693031029090111421689210592000360060112658897500201001114718378))
 (.node 1 (.leaf 10592444360044200006724290301401118847921105924443600334000087795501807111192575211059241636003070000535741024091111470343110592416360034900005208370260911115792017105924443600283000090256501407111197577671059244436000150000799357517071111520756808548444360035700005251450221611115426615105922653600617142067403702609011151317810941944436002830000605860016161111510780310592444360033400008995550180711114604330088634443600467000084435501809111157714401059200036005920000623843023071111474968410592444360068200007969450221011118796106105924443600639000088904102407111155872241059217136005580000768543023071111605464103296444360042300007100390250201116134096)
 (.leaf 10592444360080700008742390250401115297092105923373600144101377096001614011189190370917344436004230000519357517161111472657410592444360033400008955550180911114575064088634443600157000088776001609111148949991059244436002260000663455018071111503200410592000360071400008642350271011118507163105924443600825000088964302304111151681971059237136004672101822631029120111597386110592371360061300008567390251401118669439105926170030247000054106501416111159576011059209436003340000862255018071111568263010592416360034100006532550180711115705782090644443600779000069244302314011159274751059200036006890000776750020071111483984710592444360013400007911550180711114940599)))))
 (.node 8 (.node 4 (.node 2 (.node 1 (.leaf 10592444360071400008655350270711118767724105924443600709029090095251904111192437281059244436008070000882539025080111496355306814444360046709267037350271201115976695105924443600334000089555501807111150073750819444436006690000654245022091111462644210592444360002100009041575170711115262142105924443600021000079105751707111161616051059244436004310000905067513071111557135410592308360082504048602370260711115897230060154443600486000044693302804111159729200529444436007420626675937026020111929179110592626360063900008600500200711114479792105920003600183000059645751709111142144741059244436007140000896850020071111906212810592000360071400006534500200711118864735)
 (.leaf 10592444360002400008075575170711114610134105924443600072000080136251507111158399631059244436000570000795057517071111533979210592444360059200009052700120711113743325105924443600592000090417001207111151099331059200036007140000861835027071111894424310592444360057600008976450220411114792679105924543600714000069544752107111158895581059209436003340000883155018071111527426610592141360036600005657550180711118699423105924443600192000079076251507111194957311059244436006170000905067513071111865816310592308360060500005990410240811119405788105920943600334000088475501807111164265371059200036002260000787252519071111400382810592444360030700009008600160711116121970))
 (.node 1 (.leaf 10592444360029300007872525190711114481107105924443600592000090527001207111183394301059244436005920000905270012071111528291010592444360051700009017450220711114701511093764443600605000061135002008111198276261059200036005050000356933028071111876537510592094360033400008894550180711119605529105920943600334000088665501807111191716300762444436005280000476447521090111965893110592444360015700009016575170711115305665105920003600293000065335251907111138931721059200036008370000903260016040111978383210592356360054021266758410240201115710520105924443600423000080295002007111145581231059244436000220000809057517071111578304010592000360083700008953600160411114637354)
 (.leaf 10592444360068900008119450221001114464036105920943600334000088475501807111187902091059244436003220000899447521071111576516510592000360022100009021550180711118997959105920003600621000088724502207111159427681059200036007190525878041024081111458702910592000017013408513894430231611113916393105920003600576000088515002004111142785260569744436007040416604529030080111608091009132444360050500005611310291211115918799071454443600247000083705251909111160801361059244436005580000796770012071111608758710592444360070900009002500200711114093955105924443600627000090415751707111160334471059223230505760301587855018041111409812510592000360038400003431475211611116181717)))
 (.node 2 (.node 1 (.leaf 10592216360025700005697600160711118671783105924443600334000066805002007111158621091059244436005050000810962515071111572276610592444360033400008149675130711116247294105920003600592000089204102407111139736000784644436002730000787960016071111846555808236444360056700007809370260711114545357105920003600832030390216001610111159934360884944436003660000813360016140111667385110592444360018300006682525190711115573074105924443600232000067225251907111155932351059244436000210000799357517071111637317610592444360040000007969675130711115977180105924443600221000090345501807111159361591059244436007420000901745022071111420444710592000360042300009024500200711118775755)
 (.leaf 10181444360061300003014390251001120537903105924443600576105963255501812111164855621059244436001340000658357517071111575106510592444360013400008032550180711114602150105924443600576000080297001207111165084101059200036004420000902347521071111614866010592116360074200008876410240711114934083105920003600782000083223102910011188802470911544436008031157586131029020111626177810592216360040000007172625150711113791269105924443600341000066114752107111185172451059244436007660000902850020161111432056310592000360030700009024500200711116148558105920003600617000089204102407111162307561059211636007140000865535027071111442604210592336360054000007506330281001118873070))
 (.node 1 (.leaf 9604444360036600007051625150711113832870105920003600413000067904102410111143859910679944436007090000817555018020111609602710592084320018300006345600160711113268355105921013600232000083566001607111194698910619144436006231331754335027090111399258309235444360015700002335370261001114706985105924443600540000066325751712111159589231059200036007190000891645022071111466288309701444360082500009029675131001113304550105924960370714000070754752107111184638271059244436002570000656255018071111827692010592444360023200006657500200711113586069105924443600689000066325751707111162333261051244436007420000879950020161111526975210592444360070400009030550181611115685043)
 (.leaf 10592000360032200007768475210711116000906105920003600793000086183502712111160565340023844436005400000394041024071111314679409677444360057600008985600160711116118761105924443600714000090006251512111172100981059244436005920000900147521071111487080710592444360071400008986450220711114523491105124443600766000079484752107111160255820970144436008320193857737026120111619166709824444360087007848246310291001115534613105922093150656000059245251907111135695501059244436007140000901245022071111598941910592444360071400008958475210711116137865105924443600714000090124502207111161932271059244436003490000645355018071111443752010592444360066900006612500200711116004640))))
 (.node 4 (.node 2 (.node 1 (.leaf 10592444360071400008928525190711115616095064254443600664000090095251907111140447131059200036006010194768452519121111931790210592101360052800008625370260711116067374105920003600837152789764502212011142056651059210336007820000808543023100111339930007109444360068200005807525190901116900543105921103270719199288685251910011151715051059210136002930000895555018071111878657910592000360083700008944450221201118824473091154443600848000088904102412011185250721059208236002830000588447521071111907717308088444360071400005685475210711118889150105923302720714000052384752110111162411410496344436007190000899345022071111364933410592000360071400007910475211211113892129)
 (.leaf 9127444360063409114907310291011116010618072694443600467000038935002007111163065141059200036006230000650557517121111379574510300444360068600008930475211201113867292075914443600682000060985002012111162938011059210136004861705568943023071111341105510592444360077714728406310291201115947110085904443600698057073955002012111136865750850344436000200322691750020021111635241608389444360071400009012450221211113852117098834443600837000090016001612011134168750988344436008370585894967513120111312124010592444360083200008625370261201118568852105924443600828104085073302812011124898691059244436008240000854637026120111751303504963444360070902049034550181211116360817))
 (.node 1 (.leaf 8389444360071421057948475211211113753260083894443600686179377925251912111187602450988344436008370205898970012120111863429000000511447086500004623390250201118876756105921013600442000074785501807111122916341059244436007900000876341024120111593825404700444360074202077626525190211115905837051254443600549000076675002007111183440241030144436006170000898267513120111600528102805444360098200005431675130201118368804103024443600486000083553902507111159453461046744436007140000893762515071111617737404052444360084800005737330280501116481432051254443600656000046165002007011115647051059200008002260000463641024071111783541209281444360032200008462430230711116136149)
 (.leaf 6231444360001400003811450220501111175085066784443600877000088014502210011161137470999144436003840000829539025071111127135808488444360082400005525600160711116424715075584443600879000069034752110011160860510653444436000030000427152519050111607238307399444360000900005473500201001110414006094974443600307000060364302307111109537181015744436002570000863543023071111090335909497444360029300005614430230711110397857000006265060669000053814302307111102198610988644436007420000826241024071111054655709388444360054000008462430231001110332599105924223600698000066973000201011135508510398144436001160000669730002050111395476210592444360029300006697300020501117820379)))
 (.node 2 (.node 1 (.leaf 9846444360059200006697300021611114997564033094443600164000079863000202011148777160330944436001570000798630002021111439279703309444360015700007986300020201116142488012964443600623000005023000015010874467080041044436006230000041645022150111524403302290444360062300000276300001501088456648000004443600623000001724502215010907823130033344436006230000064445022150109186897203200444360019800000000300001501113482672032004443600623000002603000015011134826720229044436006230000043330000150109047309202829444360019800001563300001501113325568000154443600623000001344502215010924054520016344436006230000058945022150111537739800461444360062300000831450221501092085042)
 (.leaf 1877444360062300000390450221501113325568032004443600198000000003000015011134826720265244436006230000086230000150109099924100415444360062300000330450221501115827920025494443600623000007743000015011134826720025544436006230000032345022100111490328903040444360062300001045450221501092003525033794443600623000010304502215011134826720337944436001980000000000003150109200352502823444360019800000000300001501113482672028234443600198000000003000015011134826720299244436001980000000030000150111348267202814444360019800000000300001501113482672029594443600198000000003000015011134826720297944436001980000000030000150111348267203087444360019800000000300001501113482672))
 (.node 1 (.leaf 2290444360019800000000300001501113482672013504443600623000008983000015010920035250015544436006230000031145022150111531772503205444360019800000000450221501113325568031894443600198000000003000015011134826720318944436001980000000030000150111348267203189444360019800000000300001501113482672002234443600623000009564502210011156455320318944436001980000000030000150111348267203188444360019800000000300001501113482672031884443600198000000003000015011134826720243344436006230000047530000150111332556803188444360019800000000300001501113482672031884443600198000000003000015011134826720311544436001980000000030000150111348267203077444360019800000000300001501113745488)
 (.leaf 3102444360048600000000300001501093504217031314443600198000000003000015011134826720320044436004860000000030000150111348267200458444360019800000000000031501116268816036244443600198000000000000315010945004120310244436004860000000030000150111348267203102444360048600000000300001501113482672031024443600486000000003000015011134826720310244436004860000000030000150111348267203102444360048600000000300001501113794223031374443600198000000003000015011134826720318344436002320000000030000150111348267203178444360034100000000300001501113482672023344443600623000001543000015010949971150327744436003070000000030000150111348267203102444360048600000000300001501113482672))))))
 (.node 16 (.node 8 (.node 4 (.node 2 (.node 1 (.leaf 3271444360048600000000300001501113482672032484443600486000000003000015011134826720230944436006230000015430000150109598754301046444360063900000481450221001097746069031864443600486000000003000015011134826720324944436004860000000030000150111348267203264444360048600000000300001501113482672032004443600486000000003000015011134826720320044436004860000000030000150111348267203200444360048600000000300001501113482672032004443600486000000003000015011134826720310244436004860000000030000150111348267203102444360048600000000300001501113482672031024443600486000000003000015011134826720155944436005490000135445022070109861899700280444360087000000714450221001098455419)
 (.leaf 2755444360043100000000300001501113325568027254443600486000000003000015010969737510258144436004860000000030000150111396279601559444360083500001339450220701098791130015594443600116000012614502207011156133010278144436004860000000030000150111399401102781444360048600000000300001501097465178031864443600486000000003000015011139940110163544436008700000055745022070111591584401559444360065600000867450220701099265457016484443600623000014354502215011137579680318644436004860000000030000150109795543802485444360087000000649450220701114930643024004443600870000013544502207010995502030266144436004860000000030000150109844449103186444360048600000000300001501098444491))
 (.node 1 (.leaf 2396444360048600000000300001501098444491016014443600623000001893000015010984444910236644436007420000085045022070111591924001559444360087000000805450220701114710009020674443600958000013394502207010999874820053544436006230000149462515100109969954703186444360048600000000300001501098919975015594443600978000013544502207011001916310260144436008700000141745022070110006352901559444360102200001453450220701114999302016434443600916000014174502207011004753240300644436010430000147045022070110060935702746444360087000001283450220701114928160015884443600837000014434502207010999365640043144436006230000150662515100110019842901522444360062300000926500201001100619491)
 (.leaf 3019444360002600001003575171501115041506036104443600486000000003000015011141625710187044436009040000137945022070111622252502366444360087000001427450220701101089208023664443600870000014174502207011007630250308944436008700000152445022070110041090900760444360062300000647600161001115345068030374443600486000000003000015010996477810236644436010330000144345022070111607592601643444360085800001453450220701101012401017174443600845000008504502207011006289560171744436008450000077445022070110094591400000626360085800001379450220701100649648028564443600870000015104502210011152343640173144436006230000108957517100110063844702029444360062300001065450221001100813613)))
 (.node 2 (.node 1 (.leaf 2008444360010000000627600161001101167303012804443600623000006276001615011009024970203444436004860000024230000150111332556803012444360098900001470450221001114847796028274443600885000014704502207011153123110236644436010960000143545022070110110565601717444360081900000898450220701115308741024454443600845000014274502207011010307870305644436008650000151045022070111577082400110444360084800001490450221001113555019000004443600848000015424502210011011127330002544436008480000155645022100111419671101280444360017600000726600161001101678163024314443600486000000003000015011001295380361044436004860000000030000150111427312501785444360048600000032300001501114273125)
 (.leaf 3642444360087700001510450221001115242724051264443600709000011994502207011013301300326544436008620000146545022070110165552500011444360084800001535450221001114377837004724443600623000004406001610011155924650055244436006230000049060016100111587201500996444360062300000589600161001115247297009454443600623000005896001610011013142730225944436006230000013330000150110036932903610444360048600000000300001501114311447036104443600486000000003000015011143114470361044436004860000000030000150111431144703610444360048600000000300001501114311447036104443600486000000003000015011143114470361044436004860000000030000150111431144704704444360002800003291550181001114002730))
 (.node 1 (.leaf 3639444360087500001528450220701101532211033224443600948000014434502207011015791640164344436008450000068045022070110169260601643444360000900000395450220701115888674024454443600845000008864502207011015630890178344436008450000139645022070110192928701707444360084200001283450220701116147347026754443600839000014794502207011147358610000044436008480000153545022070111578654500000444360084800001479450220701115977527000124443600848000015014502207011158869110163844436006230000095245022100111588313201609444360062300001045450221001102113444036104443600486000000003000015011143504770361044436004860000000030000150111435047703610444360048600000000300001501114350477)
 (.leaf 3370444360048600000000300001501114350477032184443600486000000003000015011134826720000044436006890000391655018070110183221901643444360002600000296450220701101707769024454443600016000004024502207011018099241059241136008450000086143023070110255562405126444360084500000916450220701115617428051264443600839000013544502207011026277050178344436008190000146545022070110242743302675444360079000001427450220701101980938012174443600870000015014502207011016789170139644436007770000152845022100111530728800880444360084800001238390250701116369744013374443600623000010374502210011160278400095244436006230000064760016100111533769102948444360048600000000300001501100846641))))
 (.node 4 (.node 2 (.node 1 (.leaf 6792444360071400005321525191001114188778029414443600976000010815002007011158372580225044436010960000149045022070111552276010592383360066400000850450220701102767532016434443600000000008504502207011148555791059241136008450000074145022070111586446301372444360084500001397410240701102745887009314443600719000013214502207011150127050066644436006340000098745022070110197067200000000360084800000867450220701102216366016704443600623000008054502207011162440080120244436006230000110145022100110257506502398444360048600000055300001501101084126033704443600486000000003000015011134826720000044436006891434527055018080110230977910592444360090400005730550180801102428460)
 (.leaf 3191444360087800001435450220701103189043038904443600896000015014502207011026058940294744436008480000133945022070111637071810592383360061700000296450220701102627202016434443600004000002964502207011146296650512644436008450000126145022070110233751205126444360034900001283450220701102596694000004573600013000012304502207011022307600000044436004310000119945022070110213159600000452360083900000402450220701102844401006664443600069000003454502207011160032331059229536006230000100945022070110260506301231444360062300000564600161001102444031012314443600517000005546001610011026290250054644436006230000049762515100110293217903610444360048600000000300001501101320808))
 (.node 1 (.leaf 2024444360000600001424300001501113325568105920443600028000040405751707011160101770331144436010030000150850020070111496983603890444360087200001524450220701103289356000005053600656000008864502207011033078080478344436008450000079435027070110296050305126444360084200001245450220801103215662000003553600845000015104502207011026747650108144436000260000029645022070111601335902090444360055800001038450220701103085148000864443600136000012145251907011027481770023844436008480000141445022070111503497307341444360062300001501450220701115744692026624443600623000010564502207011153002580237644436006230000089845022070110333758702711444360062300000710600160701115725565)
 (.leaf 1119444360062300000703600161001102722393028464443600486000000003000015011015566661059204436006890214556955018080111585417406659444360097900005100525190701115890000029474443600845000008314502207011031931160478344436008450000061133028070110269289900000444360084500000620390250701102819156051264443600656000012614502207011030263110000045236000010000045145022070110312868500786444360002600000357450220701115218416000004883600836000009454502207011031402680127644436006230000049060016070111472929700000543452062300000703600160701115545929011514443600623000006685251910011154511460000046036006230000056460016100110322972902986444360048600000000300001501101791684)))
 (.node 2 (.node 1 (.leaf 2470444360000600000481300001501113482672000004943600113000038535751707011033359580000044436007040000534255018080110390726101616444360105600006001525190801115450686105924203601024000060645251908011026950290315444436007140000527855018070110310601203553444360101400007260475210701115501617043974443600617000030895251907011035221590421744436008780000155247521070110263996600000444360001400000357450220701102688391047834443600349000008354102407011028664840512644436008450000082443023070110296601305126444360079300001300450220701103102441002384443600000000007144502207011030584930000050736004770000130045022070110353222700000452360001600000901450220701103328867)
 (.leaf 444360084500001453450220701103283931000005793600592000004164502207011033017490000044436000040000036745022070110318772300000626360080700002784450220701103440301000004873600807000016154502208011032562240023844436008070000305145022080110352864800000444360062100001506625150801114827319000005213601141000006243902507011148205650094244436006230000071060016070110316859601457444360062300000676600161001103088081029864443600486000000003000015011020258430286544436004860000000030000150111459853900000494360071400004600575170801103376247062684443600698000060865501808011039273020000044436006690000881755018080110312763600000444360102900008535450220701103776347))
 (.node 1 (.leaf 444360055800000693450220701116393792016434443600006000008314502207011153670190164344436004000000086745022070110338008203347444360084500000916450220701103495549051264443600844000014274502207011034609970473544436006860000107645022070111616831500000444360002600001149450220701116234569000004443600845000014704502207011039560780000044436005280000036745022070110336651300786444360086200000567450220701116592858007854443600807000017994502207011148040610000050236009660000147652519070110375810700000444360114100000902390250701103536252000005213601141000029323902509011032037960000052136011410000102139025070110253164300942444360062300000703600160701116127373)
 (.leaf 1581444360062300000676600161001115895482031524443600486000018863000015011133255681059237036007790000569360016080111646630905149444360071400007370550180801115554898079864443600613000075365501807011144667721059244436008390000432047521070110364100000420444360000100000383450220701114871793010244443600845000007414502207011033691190512644436008450000128441024070110406571310592343360000000001038450220701115266068000005073600016000009564502207011033623510000050736000000000079045022070110353871400786444360068600000516450220701115747453002384443600719000037044752108011158908140203744436006860000129962515070110391726901322444360062300000564600161001114514128)))))
 (.node 8 (.node 4 (.node 2 (.node 1 (.leaf 2971444360048600000000300001501102491515058384443600714000063255501808011037583191059244436005580000776457517080110454441210592444360071400004454575170701116549406105924443600592000044746001607011044628820000044436000110000035745022070111589750000000490360001600000367450220701103300672004204443600007000003834502207011158072130000044436000000000043645022070110410214400000507360000400000790450220701116077692000004523600004000010764502207011160322700000044436007930000144345022070110419710900000508360001900000199450220701104083655000005273600005000003954502207011039016560150044436008700000055745022070111538368001355444360080700002869450220701103946622)
 (.leaf 2037444360083500000455600160701104433291000004933600643000010266251507011155911710000053936006390000117662515070110312316200000353360062300001165600160701114847988105924013600623000007566001610011145366680072744436006230000055460016100110468399802445444360068900005340550180801116474590024454443600704000056575501808011163084491059229936007420000567257517080110396882806419444360076606757323575170801115299461105923963601018019565335251908011046755241059244436008420000758862515080110497663710592444360061700006842600160701104557211000004443600477000004164502207011040413570414244436005280000042337026070111622432305126444360084500001325390250701104520193))
 (.node 1 (.leaf 5126444360084500000919390250701104297793000004443600845000015104502207011047883070000044436000000000119945022070110455602600000527360000000000395450220701104752187000005333600790000026924752105011043422490000052136011410000427639025070110377713500000453360085800002874625150701104273357000004443600623000007396001607011148583100145744436006230000117662515100111568964605385444360064300005411550180101114190520043974443600689000056575501808011157688080439744436009290000632555018080110464801710592444360082400007765550180801104686408105923763260643000045616501407011158303780042044436000000000043645022070110412623404142444360002400000468450220701104420743)
 (.leaf 5126444360000300000956450220701115349693000005553600001000008574502207011045127410000044436000100000090145022070110440139900000444360000300001199450220701104157562004204443600867000015184502207011049793970023844436008070000429745022080111512962900238444360080700002241450220801104624051000004443600835000003176001610011045409600023844436008580000293762515070110440204200000000360062300000726600160701104769072035844443600486000000003000015011031831400256844436004860000034430000150110318314010592357360071410606064525190801104154072046034443600558000076235501801011047697061059244436008440000884565014080111651017203555444360084400004495575170701104874008)))
 (.node 2 (.node 1 (.leaf 444360082800004516600160701115121533105924443600896000043535751708011050744710512644436008460000143545022030111641994205126444360084400001435450220701105036530051264443600002000004014502207011047997130000046936000160000098745022070110530645100000444360001600001076450220701105143033007624443600004000003674502207011161988180000044436008070000278345022070111566482300734444360062300000756600160701104974288009474443600623000007566001607011042626800217644436006230000080960016100111362484410592444360105000006358525190801115239245043974443600558000073584502201011053365211059244436008370000715957517080110517697310592444360088500007787600160801105110826)
 (.leaf 10592444360000300004080450220801104801025000004443600134000004264502208011045523200042044436008450000042645022080110481291505126444360084400001465450220301116728285051264443600742000013194102407011166431480512644436000030000033645022070111587966000000444360052800001168370260701115571454000005793600006000002674502207011050817280000055736007930000408045022080111632748600000594360082800002473450220801105166172035544443600835000024716001608011050555420000055136011410000344339025090110464651304397444360076610267281600160801105089380043974443600689102668155501805011058740901059232136007140000622752519080111617803603112444360074200008876625150801105095030))
 (.node 1 (.leaf 444360000000001762450220801105244821041954443600845000012383902503011052959370512644436008320000145345022030111544963300000444360002400001115450220701116085204015124443600026000004364502207011056906230000056336007090000184347521070110607305900000444360068900002791500200801105526792000005883601141000033153902507011051615290000044436006560000357652519090111430353003368444360062300001261300001501103866087024764443600486000020633000015011133255681059230736006890000537760016010110634760010592444360076600007652575170801106462440000004443600064000004814502203011052550880512644436008370000133239025070110559284200000531360000700000470450220701116328762)
 (.leaf 531360000800000470450220701115477648000004443600357000012153902507011057429600000044436008070000135445022080111502877700000444360083500002365525190801116109818002384443600836000022815501808011067080680355544436008350000152060016100111613694303803444360085800002926625150701105367408007344443600858000009736251507011052269500139344436006230000077160016070110566104910592359360068900005411550180101116213099105924443600714039257095251905011153002381059242936007140608743355018080110598847010592444360071400006064525190501105754004105923493600828000077125501805011054815510451144436007140000893567513050110617308010592274360077900008751625150101115301211))))
 (.node 4 (.node 2 (.node 1 (.leaf 420444360084500000500450220301115058596068144443600845000007403902503011156634990512644436000030000022945022070110584748501128444360046700002247450220701105606183007624443600623000010244502207011059830240000044436007190000307447521080111568795800238444360046700003497500200801116947536000004443600968000056245751707011159647730023844436008250000289860016070110605572902419444360062300000763600160701116047067105924443600714295374115251905011052054711059244436008030000614052519050110585542010592444360082415937520475210101106767419024454443600920000076806001601011157543640023844436008450000803950020080110667139504715444360083900008756525190801116846268)
 (.leaf 3236444360079300000773450220301105850571047884443600845000012153902503011060851640000044436000640000061445022030110606695800000531360000400000518450220701115100115023604443600862000026314502207011069065440000044436005170000233350020080110649569700000444360085300002994625150701105677797013294443600643000007556251507011165676390218144436006430000076262515070110593778503392444360002400000669450221001105965106030504443600623000019333000015011133255680408044436006890000318860016100110630770301403444360068922934592550180801116131140105924443600682000075504502205011058874250419644436007140374770960016050111623905604859444360085305878743500200501107354332))
 (.node 1 (.leaf 4715444360087500008629450220801107032599051264443600192000061384502201011059596140524044436008450000164645022070110624990504619444360084500001300450220301115168436010034443600807000020904502210011069980250000044436005400000593441024080111549034200000455360083900005790350270801106129872000004443600719000065844502208011142168681059219536006890000286655018090111575519500000449360080700002604600160701106521722000004443600689036252495501801011154570620355444436006891123591460016010110628991203083444360063900008859625150501116716323041034443600845000011814502203011061758260269744436003570000209245022070111662858600000564360080700007174450220701116100775)
 (.leaf 626360083500003889600160801116929035002384443600613000063286251501011078226271059243736006890000534055018010111570454706190444360085300008815500200501117167448051254443600858075272075002005011081129261059244436007660551896655018070110722669304876444360086700008661450220501107040058032364443600845000036644502203011072136770524044436008450000403045022030110672635400000444360084500004364450220501116511046056984443600845000007414502203011154235790000045036000010000036745022030110709424100000444360000000000383450220701107268120012694443600486000017964502207011149554000495844436008070000457045022070110767708200000571360002600001884550181501116276202)))
 (.node 2 (.node 1 (.leaf 762444360114100007265390250901107733314105921953600026000049456251508011160795090140444436006890000364955018070110758737000000626360002400000669450220701107916448051254443600790000088685251905011173094150488944436008440000885345022050110778453803236444360084500004464450220501107700324000004443600845000049954502205011076856790000053236000000000224145022030111637823201165444360079300006868450220701116109677032764443600964000053084502207011073008390037244436008030000408045022070110722549903800444360002400000679450220701117612542047714443600689302348815251905011156938731059244436008362551617055018010110809466007462444360082807357714525190501117325073)
 (.leaf 10592384360089700007819525190501108064716105923843600848000074694302305011080988511059244436008882551894447521050110862851006814444360084221298836450220501108160787105924443600837000088184502205011157409130312144436008070000642645022050110810444005240444360000000005338450220301116597911000004443600617000016544502203011160810890398244436008450000272445022030111648292002855444360080701197495450220701114833503026684443600807000057924502207011157536270070044436008070000579245022070111633965610592394360002600002047550181501117596037024454443600807000072794102401011084890210355544436008070000683029030050110802693104766444360068900006588625150901116142324))
 (.node 1 (.leaf 10592192360068900003649550180901108284072040974443600024000006894502207011081614560484344436006890000606452519010111644125510592422360082800007358450220501108627075105923843600837000077365751705011087399560540244436008280000886367513050111648987710592408360086221978818450220501108233927046414443600832000088534502205011166554440423644436009010000880145022050111637530100000444360028300006311450220501117584451000005453600005000004014502203011081308230464644436000190000055845022030110777492404646444360000000000573450220301107765736027574443600807000042824502208011163756900076244436011010000721741024010111777199404465444360092100008281370260501116492985)
 (.leaf 1404444360104400007482550180501108311524105923343600689000066196001609011168720111059231336006890000293855018070111632939001576444360088200002064525190701117670803105922283680799134058785501805011083300291059216136008281340898070012050110810250606815444360077708977297450221401107976182051254443600016072151734502205011094764481059240836009440000885345022050110834727301404444360085300008853450220501117685694049164443600782000088184502205011171542630000044436000030000195245022080111624339803553444360027300001844450220301115775985000005653600170000032145501801011158232830000062636000240000278345022070111614850800000550360002500004023525190701108342640))))))))
 (.node 64 (.node 32 (.node 16 (.node 8 (.node 4 (.node 2 (.node 1 (.leaf 10592444360082821577793500201401108458890105924443600824118982053102905011082217000489144436008320000883645022050110862483100000626486000000000471450220801115894569000005453600000000001994502207011083295260355444436000000000101145022070110834548010592444360068900005207600160901108707967004204443600026000048305751707011157730490802944436008280875781065014050110899199800000444360000300000518450220301117447733046464443600000000005734502203011159461280613044436009040000581847521070111651053200000536360051700003841475210101117087784045594443601142000087025501801011087675550000062436000240000416145022070110922684905697444360077122086884450220501108643667)
 (.leaf 9914444360071419548781450220501108408387105923912450669129983182903014011174905721059244436007900511804527031080110846508206814444360079300008665450220501109310126051254443600807000069654502205011086364960512544436001920114613845022050111595022700000444360000000000244450220701108264254031934443601159000088854502205011165374790625644436000250000483950020070111552004000000444360002600005123575170701115910774065164443600828232476024502214011095056251059216136008280504765555018050110909773710592444360083525638129290301401108566231105920003600938000083923102914011161617580892444436009150000834133028140111733479900000444360062101138357430231201108916850))
 (.node 1 (.leaf 626360001300001975450220301108719238000004443600001000001814502203011159218360000044436006230000682347521010111768412500000444360004800005595500200101108766663039694443600656000086984302312011175231600000062636011590000567133028010111744883905687444360002400005316500200701108813237056974443600782000065424502205011095620360892444436009710000852835027140110900869400000626360000000005178450220501116525444000006263600069000016074502210011087669360055444436000100000051345022100111605815300238444360000400000218450220301108603699000004443600176000003834502203011173764650355544436009820496628145022070111631679904626444360087000008573450220501108859370)
 (.leaf 4256444360068900004928600160801109360637105924443600623000064365751707011090955750577544436000260000441257517070111604873410592412360082806527550450221401108916105105924443600704318588014502214011089755291059204536008280488837833028140110878030710592217360080303095986250321401109155702105924173600819011161113502712011087651591059244436000000000563345022050111808654500488444360013400000322450220301108676716048944443600689000064916001601011175184530360744436011550000469133028080111730719000000514360063400005141450220801109027708046104443600634000051414502208011173492190413844436008780000499645022010110929135004138444360113200003594450220701108930480)))
 (.node 2 (.node 1 (.leaf 6102444360002600004353575170701109076251098194443600825228488184502214011159954081059229236008283068881550020140110954460709604444360080700007574450221401109486085105924443600771291188655751705011090788920913744436007990000844033028141110888543001667444360080722847568450220501116209480000004443600719257081324502205011163757770512544436000000000168745022030110924923205125444360101400003747450220301108849211007024443601004000032354502203011088549710122044436006210000565341024010110963951900000578360064300006058450220101109829580035554443600592000082414502205011093303150520044436005920472878145022140110925975400000444360001300006364700120701117733480)
 (.leaf 10592444360112300005234475210701109035762002384443600846000075565751709011088522071059236236008072325723545022140110899804510592000360076617828111290301411109483450002384443600005000044834502205111158743560070244436008580000491945022050110903556110592415360065600004847475210101109759112039954443601141000050684502207011173372740000044436006890000628357517070110954050506985444360022600005682650140101116087182105922923600824157088825002014011174132571059220636006892110831745022140111585462910131444360078218648854430231211109523711071814443600842000059792703114011094358160000044436005493851673745022140111652879500000522360000000004235450220501109426085))
 (.node 1 (.leaf 462360015709514231450221001108888993051254443600000095169275251905011161158460140444436006050000861445022140110958455304894444360063900008683410240501109399808029814443601086000058063702601011093342230000044436000570000782267513070111595914410592266360002500005930700120101117373051103104443600879257690184752114011159069381059213336006340793897067513050110990418610592374360089702958953600161401117653057096044443600807305689115501805011162615660960444436007990295890960016120111632229610592161360080728428596430231201109703333105920003600771000082042903010111176549591059200036007930295837833028101111752241509721444360083715559012675131211109517150)
 (.leaf 459360000000000115450220501109264506035544443600011000033544502208011092106570512544436004670000510443023050110928134205643444360083500008799500201201117840329070684443600698000088776001612011165346990602344436006270000872841024120110987731205126444360115900005485330280101110063117024454443600870000062484502208011096325700903044436008252222728541024100110961601610592091360083532938665450221201109841043105921613600779106784884502212011088573960569744436001570445629845022140110985632210592000360070424137831250321011109432038087984443600803000086793902510111160664370971744436008352222879941024121111576546200000451360017619264237450220501116081250))))
 (.node 4 (.node 2 (.node 1 (.leaf 525360001800003566450220511109583313002384443600669000073274502205011101113070000044436000000000276545022051110906721505087444360000000001607450220311109089259051254443600005000028424502205111092743780244544436000000000304545022050110934573906112444360095502916423500201001115695249000005863600431000030495751710011170383800523144436008370000861445022120110937112710592444360007200006501430230801110094652041514443601141000072154502207011172465170000044436005580000769065014070111017113110592375360064300006407600160101116171434105924413600627395988325251912011174116321059228036009452648889847521120110995214310592086360068906188986575171201109828768)
 (.leaf 10592220360065622098972650141201109675057105923473600904198589865751712011094894431059219836007091187762750020140111615845810592167360068202874742270311211115822777093924443600790028762074502210111162992791059200036007041820816831029120111758380500000626491011600002341450220511117532415065994443600192000040804502205111090824150512544436004231187376643023050110938252801404444360068900006748625150101117965932048514443601141000077445002008011159448451059244436008363848872539025120111585969810592198360069831298596430231201109748929105920003600686359585964302312011098836521059216136007711519881845022121110963684010592134360070410488438450221211117200396))
 (.node 1 (.leaf 5696444360044218086266330281201109405304000005534280006000028834502205011095095110322244436000110000258045022100110943401500000444360001900001898450220501117591752051254443600198000024154302305111096343830309644436009190000419850020050110999641910592061360063400008650410241201116550850105923273600689000074756251501011158490821026344436006823755902655018120110978287110592098360064315088910575171201109984295105920003600824000084613502710111097130940828944436006210000620745022101111040626508155444360078200008872450221011115891459000005813600009000017294502205111094192240439744436001002040180043023050110924472405087444360017000002713410240511115866998)
 (.leaf 1218444360094207493836500200901117436544000004443600621115541094502201111100540790412144436008350000866545022121111032987206037444360077100008836450221201109801903105920003600689000064136501401011173455610512544436006890000757970012010110993856403599444360068900006337625150801110412520105924443600689000065686251508011158402671059244436005170000605965014010111607473300420444360048600005882650140101116359662105922543600777216087264752112011103148221059216336008282030766750020050111795874410592347360079305976453550180501117482036105920003600779246285284502212011173158351059213436007420743880047521101110974580510592134360077902738573450221011116995870)))
 (.node 2 (.node 1 (.leaf 10592329360000007431975450221001109307736024454443600100000019494302305011173450430512544436008462852842533028120111015728407157444360081915818818450221201115775295000004443600669000062025002005011108251460512544436008750000801150020050111789048010592444360115900008464310290801110211150038284443601159000064375002008011174079960622144436006891145607662515010111688649606158444360068900005933625150101115828140105921363600704059088795501812011176528251059215636306271017883062515140111586051909440444360080300008870475211011118440678088374443600779126361734502210111100493351059201836007990000696233028101111614426700000590360001000001502450221001109789971)
 (.leaf 5488444360001300002241450221001110004625051254443600273000050194302310111096478820000044436010570000704031029050111595240401403444360068900006578625150101110182557002384443600576000064746501405011161832650140344436006890000638562515080111644964410592444360085819987639475210501118615745105922673600793220677544752105011177971891059200036006862484752345022120111609878110135444360077711348783430231011117638275105920003600837000088004752110111103299630000060547100250000263545022080110990088905537444360068600004728450221011117524637039634443600000000043264502210111099007580666744436003660000684645022101110978178606190444360046700005191430231201116040137))
 (.node 1 (.leaf 8012444360081900008916450221201117850107047974443600918000070063102905011163511200512544436006340000642350020050111808312710592142360068934488383450221201110170256105920003600771362975504502212011160356531059200036006823357841643023120111728074910135444360074202558898475211011110211932097344443600837000089154752110111159942870936244436006980000881550020101111608812305691444360059200003978450221011109871912061904443600686000049834102412011100817220512544436008370000820245022120111033787300000444360083200006548450220501116139025000004443601017057488014502214011105859100647244436000000999510247521050111609625500000444360085600004296475210111115983305)
 (.leaf 10592445360083500008872450221011110580598039814443600689000064486251505011151427071059207736006864033881845022120111121274910592444360054024188614450221201110372716105921823600835189770574502212011110814381059200036007044060757445022120111616589709154444360076600008877600161011110602234094404443600790000088776001610111104722990914844436008321112710635027101110995316005691444360064300008525600161011117299851046234443600009000015704502210111097325970462344436000240000111545022101111581396105087444360000000004728450221001115778029051254443600845072083914102410111161262920619044436005580720494243023120111745605406190444360084407208120410241201117369689)))))
 (.node 8 (.node 4 (.node 2 (.node 1 (.leaf 444360097604188853450221401111168449105924443600835000088534502210111181231910380544436007140000605860016050111597724110592444360074202338528450221201110777644105920693600790254288184502212011174135701059200036008353698564845022120111011493810247444360077100009011700121011115726673099074443600601000089726501410111162501990244544436008580000566447521100111040292008439444360085605476202410241201111057272051254443600689000074246251505011103296391059244436006890000532062515050111027951205125444360070421527542390250501110882932105923283600835278787834302312011179166810000044436008282216681345022120111747800409907444360060100008814525191011116543805)
 (.leaf 5800444360083500006710450221011115939772054884443600793000058724502210111152899760791044436008280000883645022101111743775705125444360083217098317450220501110685752000004443600961000036305002001011174334821059200003808030000824145022100111815607410592000360077104068988525191201118514370039814443600807040663994502205011108654300355444436006891308699745022050111597455910592444360082500008832525191201110362358089734443600779292785284502212111164195630972944436007712009883645022120111114087009840444360057600007385410241011110786693091484443600467000088704752110111112583690000058036005400000878343023101111789401805125444360051708364323430230501118089423))
 (.node 1 (.leaf 5125444360083900008646390251201110565162105923203600799000085734502210111157435650497544436010470000791057517050111117370810592444360080714038548430231201117724616105924443600807040384164302312011158074931059244436007090000428050020050111815746010592444360079900008511430231401117964950097294443600714206988184502212011160307850805944436006130000896557517101111039488208165444360107600008241290301011115435230056914443600682000062584502210111160455310532344436008350000550245022101111034532307910444360081900008872450221011117993605061904443600617000051454302310011105359420512544436008560403861939025120111604679705125444360019200007934450220501110636751)
 (.leaf 2073444360079323484408450221201110676925105924443600779000059015002010011176763271059244436006890949750462515050111154875610592444360086503985411550180501116619514104554443600558000084373502710111123759900914844436006560000882043023101111100203508059444360077700008987550181011115881511080594443600793053789545751710111108669520825044436008370000869937026101111425055807224444360051700007235450221011110849033087924443600819022684384502210011110230481059200003408070000871045022100111117546110592000360081900929016550181201116183761105924443600000000068447001205011176868781059244436006861903705043023140111162897309604444360080309378780475211401116422712)))
 (.node 2 (.node 1 (.leaf 6174444360063416657320475210401111448704105924443600682244271524752114011158439821059244436007902442878145022120111073664009773444360079023348801450221011111464651105924443600585106189674502210111159706770914844436002320000885345022101111837805608059444360107400928602370261011110637352088774443600528000088935751710111112390400720744436003490000880047521161111525680905125444360071941008763450221201116375028061904443600686000048305751710011160588110000044436009820000306550020011111066469610592000053083500008763450221001111522802105924443600689000067476501405011111994950000044436008443427869539025120111120612308683444360068215628840390251201115978391)
 (.leaf 10592063360079330718665450221201110810859105924443600613000090074752110111160325541059244436008360811879639025101111575106810592444360068600008504350271011111385705094624443600486000085444502210111109517900619044436008030811861337026121111161636306190444360083700008428370261211116307741051254443600431066983834502212011178692030512544436008370091525145022050111141913710592000360066400008098450221001117369805105920003600837000083883502710011180041790930544436008280224835743023120111136409209773444360077927148916450221011111818701098464443600366000089674502207111110153360645544436005280000839955018161111072001808877444360068600008935675131011110691537))
 (.node 1 (.leaf 6190444360080700008528350271011111999827051254443600400209047374302312011159481021059230036008030380811847521101111774076610592289360083706518899450221201111871376105924443600779145268046251505011110550740490544436006892745703360016050111743903105371444360068905217263575170501116100178105923413600807000082194302312011113114810991444436007042579833447521120111620020910404444360110103809013475211011116034757098464443600585000089685002010111114049051059252036008460000893047521101111205268610592338360065605186364450221011116171332105920003600837000079023102910011116839920960444436006231143768257517140111601689706939444360077924038833500201201111791764)
 (.leaf 8620444360069805188585390251011111458317096024443600400000084384502216111152247281018644436003220000879950020161111587660110592000360083205148437350271001117859245096044443600689143562306251505011185364340805944436002930514375835027100111544113010592271360083600008671550181011111782409049454443600007000045774502204011160595301059205436008350000556445022101111174532210592000360059215168020450221001111606022105920003600617000089597001210011124063060965244436001570000525145022161111527187805920444360071403574744450220501115325885091484443600027050639784502210111176319470806444436000020000306145022101111146990209902444360071400007190475211611116304031))))
 (.node 4 (.node 2 (.node 1 (.leaf 6713444360083700006071450221401114489918087934443600719050155654502201111115992050670844436008282731566245022100111191060410592444360082802178781450221201118019272105921933600837397875504502212011179573601059221936007663224735845022120111197252510592219360082418917718450221201118549713105924443600779408379505251912011122878651059236036007931313871045022121111857441110592444360079300008219430231211111538222071584443600517000084083902512011166488990826744436006861223764639025121111151177806165444360006424114109450220501115890750105923523600207209138114502212011115107811059244436008703104851833028071111193309208064444360030700008944450221611111856583)
 (.leaf 10058444360029300008528450221611115765382105922443600000000041234752110111114830230684444436000000000410945022050111271070410592000360083502168710450221001111577552105924443600824289776604502212011121810541059244436008584035654245022040111207326805272444360084441275305500200401115851634028154443600011188635474502210111113870940899644436008902399565341024121111807622210592000056023200007496450221011111912729105920723600799000049364502210011119580140512544436008194109673745022140111272912706764444360068223328607410241211115735465092354443600643049334894502214011160126650806444436000060000299545022101111144941408064444360082400008976550181611112563489))
 (.node 1 (.leaf 9841444360045000008618625151611115784105083734443600911274888644102412011163490271059217036006820337880145022090111626237510592626085071400008892600161011111728180105920003600835074085734502210011116338561059225836007043146768745022120111228376806813444360077102135865450221011111819985105923523600613355654084502210111180915780806444436005760000694841024161111205164510592372360019200004904450221011111932848078244443600742420089775251914011158528511059218836007990484802045022121111209532903285444360051700004921390251001118016404105924443600605000088916251507111120047491059200036008362899812337026121111205481808064444360019200007917290301611112938977)
 (.leaf 8064444360077100009033700121611118432664000004443600877128487114102412011184952040808344436006560211642645022101111221465110592178360080300006144450221011111896441105920003600837047974954502210011178736471059215836008240000607847521080111236010909480444360068621548650410241211116272132099144443600689000044904302310111180550300000057546803570000278041024100111778560808064444360023203348322310291211112821833080644443600771000089977001216111186605960806444436007710000865570012161111795886108064444360077100008920700121611118110075084554443600100000080994502210111158534861010744436006560000881845022161111601845710592000360077703338763450221001112048688)))
 (.node 2 (.node 1 (.leaf 6899444360068241987358450220401115920235074664443600686000053384502212111157921881059238736004000000433541024100111209936510592000360040024418913525190711113078633080644443600771000090237001216111157356910806444436007710000860870012161111792798508064444360077100008472700121611117643155069154443600226000082594102416111117883250000044436009040000874541024121111186280910592626360064300778801450221011111976722105922313600634000071744502214011133273521059244436008580958522145022040111348103110592444360077100009028700121611118741234000006264970000000025624502216111116377300552144436000030000802045022161111227080500000444360022600004651430231211112883851)
 (.leaf 444360098000008697410241611115228068105925192610617353989314502212111186128190960444436006393784642645022050111856919810592119360076613447428500201211112731230105920173120656072338114502212111124976940042044436006230330471835027100111847250507121444360054000008487410241011111918686090484443600164000062034102407111122889360806444436006210000807862515161111581786808064444360000000003071450221611112535253105922793600634000081744502207111123463401059200036007420328891645022121111328762910592229360082415897660450221001118286984105924443600682133274174502214011158650850439744436004670449805637026120111611693407121444360019800007816430231011115580687))
 (.node 1 (.leaf 499360000000003606450221011115272485080644443600423007588034302316111160397320806444436002730000843845022161111569289706894444360070400008338290301611116155432057344443600790000056144302310111180426600661144436000000206383145022100111190803706814444360082800007496450221001115789882068144443600842125163223902512111156667591059228800208480000867847521100111258815410592000360043100007816430231211118247085073954443600682150485343702612111153583560698344436006010000309037026101111569161210592107168054921618710450221611112621192105921063600247124684884502207111184462560244544436000160205551945022101111851244708064444360000000001770450221611115698949)
 (.leaf 8064444360000000000888450221611112343217085364443600686149689864502212111158649860846944436002210000590150020071111579674110592031360038404467320475211011118136870105924143600669149665424502204011136646661059231536006392306771845022140111339016410592000360070903255865450221211112739402074704443600549058571133902512011122088591059222136007140204718729030071111833151608787444360020700007403370261611112481240063724443600136000083604302316111122805410000044436007772353735845022120111327347309604444360068208212310450220401113727692105924443600686292168134502214011134511481059200036005050000862041024161111869164610592221360058500008295390250711115745630))))))
 (.node 16 (.node 8 (.node 4 (.node 2 (.node 1 (.leaf 8775444360054924704894370261011118053934105926263600232057788184502207111128282511059205536003071023839647521101111313720410592033278023200007299430230711115702148000006263600136000021334502210011155581770681444436000000000398445022101111301517106611444360019205776509450221001115530038068144443600803000064264502212011158772811059200036003490000852845022101111587783810592542360081908127297450221011112986840105920003600825203174954502210011128749020780244436009792749901347521050111508926810592444360038400008815500201611113047166104924443600517000076814102407111158264720877544436004420698793839025161111313170908871444360025700008441410241611115496226)
 (.leaf 10592339360014400003274475210711118165378000004443600021000038864752116111125895851059244436007820321749645022120111303099805496444360080725695078450221201112819414000004443600878130387284102412011128675661059244436005922775895847521050111848196010592093360097800008994475210501113371914076184443600837069486264752112111141549810921344436006130199793445022071111826762808787444360056700008653370261611113341921101344443600207000081524302307111157339591059216034100050000387645022101111275348006814444360063900003574450221011112800985068144443600186000035884302305011129534710000044436008772021896752519120111279442610592000360048628226355500200711118423214))
 (.node 1 (.leaf 10592423360071912927447450220801116184034076744443600601248088685251908011186501001059244436002830000891450020161111544043710492444360005700004577450220711118524348066114443600157000049744502210011129240760569744436008701102899262515120111874754410592000360022100007613450220711112926649105923773600793054972974502210111136255650960444436008320437231057517050111625602008745444360080301978555500201211116471292105924443600069000089506501416111162050471059200036002260000770733028161111884628009809444360000000004109450220711113060238105921113600669181778384502212011160097620000052436005670000254737026120111351896201199444360000000003287450221201116383348)
 (.leaf 10592444360086500002310390251201119967392105924443600113000090064502216111145444011059244436003660000883645022161111312369709780444360016400007938390251611118289552098094443600192000079144302316111131715890000044436000000000270045022161111842341603817444360000000005885450221001112781575020104443600025000036564502205011136346400569744436008850000858539025120111848086710592474360074214438665450221011115801147096044443600771019423104502205011160116851059244436006561088866545022080111542171705657444360089629969021600160501114176780088234443600714031482856001612111156633460569744436001360000358943023070111384708009809444360052800008511430231611116162314)))
 (.node 2 (.node 1 (.leaf 10592000360000300006509450220711113614297051054443600000000070494502210111188884911059206436006821355871045022080111629231610592400360087003128964600160801113990066103964443600709000085463702616111155408821059244436002320000871045022161111894502510592444360023200008614450221611118883554097804443600656000080563702616111158626960991944436006210000508339025161111850687109809444360032200008872450221611119022159098094443600000000071354502216111131348331059211136007993720876139025121111883111302615444360000000003846450221001118327025000004483600000000033204502210011131058810119944436000000000365645022100111544977409984444360046700008553390250711116055804)
 (.leaf 9682444360054900008954575171611116144554105922133600664000023104502205011159320291059244436002260000690347521161111587153210592444360001900009023700121611116162618105924443600019000090477001216111196180370957944436001130430743239025161111618200010492444360023200008614450221611115965278091714443600349000074323902516111156994361059211136000000000319845022160111824715203943444360000000003338450221001113353984103284443600221000088335002007111132471081059222336008370654883645022080111593947808142444360083920828910575170801116005152097934443600170000061674502216111159872931059244436001040000838345022161111382740410592444360002200009038675131611116341748))
 (.node 1 (.leaf 10592444360001900009033700121611115797331105924443600176000090085002016111164030551059244436000190000901770012161111496355210592444360014400008892600161611119548346105924443600215000083174502216111137863641039844436003660000568943023161111404747509817444360077906548504350271611114042013038174443600000000039524502210011157267640119944436008700310872943023120111588622901199444360083500627885410241201114343608063184443600898285590004502208011180351311059244436000240000903867513161111627894510592444360011300008976450221611116542257105924443600116000085876501416111160154811059244436003220000881647521161111946695210592444360023200008098450221611118898534)
 (.leaf 10592444360023200008665450221611113596195105924443600486000088685251916111160977680980944436006270000871141024161111616440901199444360082500007019370261201115871349042694443600714000046923502708011154845660635244436008622272843735027120111369425207906444360068600003952450220711116033548091494443600334000071744502216111142874301059244436000190000904970012161111569520509969444360005700007865475211611114224864105924443600027076290355751712111163395310467944436006340000536745022101111575385904679444360000000002729450221001113356815097624443600257000086115251907111184822101059201341807041703849837026100111642303508256444360083703059038575170201116161451))))
 (.node 4 (.node 2 (.node 1 (.leaf 9260444360011600007066550181611115945226104924443600148000084905501816111191654250860144436001640000575643023071111389538810173444360013600008853450221611114039490105920003600192000088524752116111159997621059244436001000187894057517071111463171610592218360068200008993450221211116421031105922183600777053489764502212011161671110119944436008070423838841024120111638885404269444360087000008424310291201114517002105924443600055000069177001216111198883251012844436000480000685560016161111648778210492444360002000008190675131611114460401105924443600019000089636251516111153548820000046836008030000689143023050111631033110592368360020710568528450220711115733515)
 (.leaf 10592000163068601858818450221011114195051105924443600048000084576751316111164823170886444436007990000488833028161111428488710413444360002200008798575171611114339595105924443600019000090206251516111145443421059221836008070185899345022120111625436904269444360070900004615330280501119038672105924443600442000089574502216111157896331059244436000190000813070012161111594519710431444360001900007961700121611113537534105924443600232000090004502216111190507631059244436000250000861152519161111469892610059444360079000008591370261611114082719000005833600698000035824502202011159865640000058336006050000893145022140111439848703817444360017000004109450220501118529633))
 (.node 1 (.leaf 10592000360083501838885450221011119032814105924443600349000069766001616111147173341033044436001000000801362515161111408445510592444360002400008604600161611116255431105774443600186000086375751716111189453490900744436008030000665335027161111623222310413444360001700007838450221611114096314105922183600777063989934502212111192990741059221836008070639900045022120111498037210592218360070900003164450220501115509249022164443600686005567443302812011143757810426944436007990300710037026050111506592710592272360059200005078450220811115979782092514443600698145990486501408011149700371059244436003660000831745022161111390707610592444360036600007844450221611114847478)
 (.leaf 10431444360013400006976600161611114939850105924443600048000087245501816111150590481059221836008320413899345022120111924531504269444360062300006149310291201115714815103304443600273000069034752116111162087821059244436000200000892070012161111585934610592444360004800008396475211611119091991100264443600017000079344502216111147152921059254636008240412623843023121111450654110592218360074202976533525191211114850895105922183600824052289864502212011152347571059244436006820000574441024020111645397700000559360059200002127410240201115699800028084443600709000051863302805011162300680579844436006890000348433028050111470514510592000360083704118596430231001114580698)))
 (.node 2 (.node 1 (.leaf 10592444360034900008944450221611116030673105924443600019000090497001216111188083241059244436000690000901867513161111906600410592444360022600008573450221611115870085105924443600028000089996501416111152568840919144436002470000601150020161111447412710577444360019800006020550181611114192556104584443600028000083574302316111189504881059200001300190000742462515161111677808810592218360078200008986450221201119377896105924443600870152490205251912011193891310920544436006430051739245022071111421568209328444360061300007838450220711116015353100444443600221029483174502207111158327261059244436000720000904762515161111930026110592444360036600009017450221611115902686)
 (.leaf 10431444360062700006730650141611116124176105924443600019000090177001216111152413881059221836006430734696233028121111920765510592218360071400006715270311211116006897105922183600682040965315501812111142313181059221836006820409773755018120111937106604224444360069800005448330280801119499188092044443600858029389864502212111160621461059244436003660000838345022161111600793010592444360000700007871450221611114874120105924443600221000089864502216111160623131059244436002150000900352519161111596338509946444360010432628511430231611116324698105924443600232000087423902512111159874650848244436008700933897645022120111460272304224444360062101766088330280801116118265))
 (.node 1 (.leaf 10592444360060500008074550181611115878243105924443600349000063595002016111158423421059221836002930000753162515120111931705704224444360056700005579310290801116198943094674443600807000081233702608111155751721059244436003840000645845022161111469281210592444360019200008618625151611115632479105924443600232000090366001616111164021641023144436007420000860870012161111497828510592425360018602907019370260801119371793105923733600617040475003702608011161271991059244436002320000896460016161111626697110592444360023200008700600161611116125461105924443600349000077245501816111150758911059216536008392321705227031120111495038310592444360065611948967450221201115916350)
 (.leaf 559360068200475744410240201115818931049614443600558000037813502705011147342590892844436007990173722139025120111593942009452444360092800002721450220811119614153105924443600013000079066501416111149352661059244436002930000802950020161111545483910592444360027300007988475211611116006963105924443600232000090326001616111153686861020144436008320000653345022121111587600010592444360077941858993450221201115999570105924443600919000039664102408011152776600537644436006210000356137026020111905887610592444360035700007845475211611114510878105924443600055000058644502216111188295431059244436002260000904762515161111587377910592444360022600009045625151611116521720)))))
 (.node 8 (.node 4 (.node 2 (.node 1 (.leaf 10592444360020700006321600161611119337910105924443600832000089624302312111156808451059244436008360508893943023121111652296410592117360018310127015575171201116074358105924443600793017085143702614111161205731059244436006820000632239025080111596380010592444360002100009052700121611114789543105924443600400000090174502216111150140970972544436000000000348945022161111922701910592444360018300008993600161611119330857105920273600357000082095751712011146478341059244436005050000888343023120111599288508170444360017000436361430231401116622530105924443600349000067636501416111152099261059244436002830000784445022161111598852710592444360061700009044700121611119774550)
 (.leaf 10592000360050500007225525191611115701420101234443600799000073805501816111194920651059203036008391180484931029121111529510802745444360083500006776450220201116226899105924443600055000090506751316111157486741059244436002830000792845022161111605306210592444360028300007844450221611115130132105924443600366000072974502216111161337001059244436000330000539352519161111509882210592132360062103957162290301201115660483016404443600682000036873902502011191460840991444436009820000517345022081111526665510592444360001900009049700121611116404532105924443600060000090345501816111163173061059244436003660000896745022161111659897710592444360007200009034675131611119137804))
 (.node 1 (.leaf 10592444360023200006107575171611119090903054464443600682000064834102408011161413720435644436003840000551747521020111913753410592444360001600007986450221611116006745105924443600019000090497001216111165845041059244436002320000886460016161111598475210592000360023200005767600161611115201108105924443600486000082847001216111188136471059244436002320000699955018161111535369010592071375084404996750290301201115181903054464443600682000066004102408011160908651059244436002210000663452519161111521111710592444360011300008076650141611119690244105924443600019000090497001216111204743801059244436002320000903352519161111584733210592000360023200008515600161611115952614)
 (.leaf 10592444360070900009041700121611119857590101664443600689000084197001216111161142391059228736007140000510727031121111534065410592214360080300006724390250801115935410088594443600871000090124502214011159077331059262636003660000667845022161111591786810592444360023200009050675131611119286505105924443600357000090184752116111162441670737944436008031164573239025020111622647410592444360000000009021550181611116310321105924443600000000090035251916111159465121059244436000000000725247521161111993836910592444360000800007815575171611116141450105924443600634000090237001216111143668451058244436002320000876252519161111960387310592000360071400006892370261201114973331)))
 (.node 2 (.node 1 (.leaf 6226444360038402753901350270811119282709105924443600207000090335251916111160150731059244436002320000905067513161111566675810592444360002700008026675131611114041965043974443600709000080494102402011164673471059244436000330000905270012161111576568410592444360000600009044600161611119484579105924443600019000090497001216111163411171059200036001860000853947521161111556582910592278288079000005201290301211115204895099144443600689000041484102408011151306971059200036007040599879950020140111645161810592181360066400006393390250811116036220105924443600477000081656751310111158433131059244436000190000905167513161111608272810592444360001800009050675131611116084501)
 (.leaf 9027444360038400004970430231611115819416105920003600835079988984752114011195205701059244436000080000901552519161111586297910592444360066400008983650141611119588102105920003600837038167353302812111150573041059215436008530982887245022140111948350406155444360063405938383450220201116245519105924443600467000090497001216111159286861059244436000550000904157517161112010969110592444360027300008986575171611115308359105920003600113000060865501816111161767780943344436001000000843462515161111569537805269444360065600008596430230201120397947105924443600226000090266251510111157809741059200036002470000694155018101111581351510592137360002100008320650141011119255121))
 (.node 1 (.leaf 10592444360006000009038575171611116109245105920003600549000062945751716111159319170899744436002320000431039025101111510957510592175360066410625477370261211119001560105923331280799026953533102912111157319061059223427905850154745441024141111592341510592354360089602698899450221201115335111060584443600669000088364502202011159269611047244436001860000805367513101111595784210592000110044200006357550181611115650254105924443600060000087576001610111160126350853444436005050377682937026141111943071210592118360017000008472700121411119034239105924443600273000090385751716111197832761059244436004230000891352519121111826511310592000360063400007207500200911115993345)
 (.leaf 10592000360064300006542450221411115703736105925853600134000090177001214111154172611059244436000640000902662515161111614798210592444360033400009016550181011119727033105920003600714000083182903010111200162001059209636006430000263850020071111527627904156444360085300008041430230801119066756101374443600442000085205251909111157318421059200036005920000583550020101111553228210592625360068600008408390251011115932195105920003600019068969175002014111157939411059200036007140149837429030101112040565510592444360087500008564330281201115869544105920000730634000074384752114111191325971059244436003840000650845022121111926125309604444360061300008954575171011119877396))))
 (.node 4 (.node 2 (.node 1 (.leaf 9709444360063406867685500201401115932762088414443600870037185953502714011156417050884144436008790000877839025140111571184410592035360006900007941675130901116137405105920001340824000069394502214111192673600801244436006390025648350020141111887689710592109360005700008975575171411115872374105925291530022000090275751712111157055211059200036004230000538639025101111575902109999444360013400007733625151011116206851086604443600104000048164302308111158653681059207636005170000702945022080111619263609460444360029300009000625151411119405486105921083600060000089207001210111158620591059244436006231289895750020120111575106810592026360038400007550450220901119119622)
 (.leaf 10592000360071400006675410240901115530523105921452280567000077954502214111156989900817044436003410579881452519121111910913910592000360022100005685475211201115053697046014443600698000070004102402011160358540846744436008423268879639025120111605644410592286360069800008027525191401115977818105921763600567000089565251909111154490761059259236000720000902155018141111603136510592108360015700009051675131411115994972105334443600283000082414502216111161772620789644436004670000833050020090111699434510592566360082400008978500200911119314638105920003600923000055863502708011194502341059200036005400000685450020090111581925408170444360063400007010475211411115698435))
 (.node 1 (.leaf 10592108360068900008699370260901116018477105920003600558000054153702610111160742460949644436005400000858455018080111596521108793444360034906748916450221411115597736105924443600247000088695002007111157221011059244436002320000863543023161111582926110592626360071400008379310290901115944542035544443600896000086553502709011159780211059200036006820137786860016140111561374310592000360057600007523450221401115605078105920003600704000074553502706111193791190514344436005170000728541024020111625195003554444360069800008962430231001116083959068684443600617000088906501402011160059611059200020208190000737647521140111573004310592000360066901367766525191401119062854)
 (.leaf 10592108360046700007947450220901115674431105921083600639000087093902509011198265291059259236008700000850435027091111603529910592000360079900007681410240711115700894105924443600232000088335002007111196346080355444436006230000901245022100111587087304937444360002500007264430230201116148915068204443600714000077405002002011161219561059200036005400000752345022140111575458810592444360074200008976450221411115826756105920003600467000076304502208011191788931059200036001000000836455018080111577546808348444360087000003817370261401115221471035544443600467000071744502202011157414910693044436004670000741643023020111957178107608444360089702488825390250201116558163)))
 (.node 2 (.node 1 (.leaf 10592444360070418429049650141401114819002105921083600528000072644302309011159978891059200036007140000835931029101111569231006930444360046700006737450220201115964407059704443600505000075803902502011192858350677544436002070000797360016020111620090710592335360066400007844525190201116041493091054443600766000088994502214011163012631059200036004420000828045022080111633205310592000360077100008665450220711115937626105924443600232000089955002007111161614330355444436006050000712235027100111632006910592000360046700008398525190801115992581105920003600517000077533902510111153616110512544436009251271730345022140111628718303554444360055800008952430231001119410233)
 (.leaf 9380444360063903528011500201401115772617105924443600467000076874502202011154064571059212636004670000716133028080111577275310592000360048600007885410240611115469479030184443600742035162714302314011160263310355444436005580000853437026020112010036603554444360062100006483410240201116076241065354443600477000067502903002011156852151059229736001000000873957517020111545785102770444360083600007060330280201120012995074374443600505000067502903002011155893300494644436005280000699233028020111603165706814444360046700007495450220201119945363105922973600467000076854302302011194516921059212436002570000832855018020111583164910592000360046700006964310290801115575791))
 (.node 1 (.leaf 3554444360055800006901410240201116195540056974443600467000069213102902011159005970879344436005400000894350020100111950902710592000360046700007106310290201115393459039264443601007034988004752102011164817930353444436011590758897645022020111576086303554444360052800008039370260201116322365000004443600585000070743502702011194668591059241036004670000779545022020111602398204720444360048606619012450220201115497389105924443600183000084164302307111157043850531844436006820000727139025020111623945303554444360048600008539350270201120333944069354443600467000075234502202011161571180472044436006690000900645022020111613626303946444360068200007967410240201116104435)
 (.leaf 4720444360069800009012450220201119487212105924443600621000086684102407111159176160457544436004860000787247521020111943166405886444360050500009014500201401116001182047204443600467000374643102902011158589370472044436004670000680831029020111597216010592000360071900007134475211411115490322105924443600366000087814502207111194055721059244436004310000869843023101111941659301403444360048600008236475210201116290403105923323600467000069063102902011156923001059200019804670344746943023020111552975504720444360064300009012450220201119131695006974443600486000088844752102011165095740069744436004860000889847521020111626167410592051360047700006865330280201115729608)))))))
 (.node 32 (.node 16 (.node 8 (.node 4 (.node 2 (.node 1 (.leaf 9604444360062100004463390250201115881815044194443601098000190174502202011192699070521344436002730122891352519020111602698805533444360068200008388410240201116341890000004443600682000090004502202011202220700069744436004770000838650020020111605173605783444360052800008840390250201116229238096044443600621000090184752102011162444811059232236004670000694531029020111937238304720444360092800009029525190201119802323000004843980867000090315751702011163889661036944436002320000887245022071111577279704352444360110900009012450220201116178262000004443600689000087113702602011162534510244544436004860000902347521020112030201208793444360048600007137390250201116295433)
 (.leaf 10592048360056700007630450220201119873404047204443600664000089314502202011196857810472044436004860000903162515020111581246304720444360051700009036600160201115677448075414443600486000085393502702011160348481059200023605050000801741024020111603585510592000248058500007174450220201116331182014034443600467000062663302802011158453170522144436005760000897850020020111617699009604444360066400009017450220201116611787072874443600486000085553502702011156919951059200021405580000803941024020111610447007148444360083900008981430230201116083264047204443600357000090456751302011158512990330944436004420000534343023141111568775504598444360071400008831410240201119761448))
 (.node 1 (.leaf 444360055800008840390250201116373552056974443600486000086253702602011157136700714844436006980000884039025020111625634310592174360051700009008500200201116069124014034443600467000072473702602011158210960330944436001700000767741024141111543965300000562360066400008825390250201119903450070604443600517000081804502202011161878120952844436002150000556445022101111940379110592153360048600009018475210201115688507047204443600486000090056751302011153137600140344436004670000657433028020111636369110592073360068614115793370261411115715123056324443600669000089054102402011160450520697344436009490000900747521020111588513105018444360102400009018475210201115248569)
 (.leaf 5359444360096200008971430230201115590841012854443601005000073924502202011169929180128544436010270000833447521020112089076500000475360070400007935350270201116392994000004443600689000090124502202011200243891059200036004860000891547521020111603484806815444360051700007930410240201116180236084624443600576000081623902510111159093410569744436007420000894445022020111636748806233444360058500008725390250901115834679032244443600807000085484302302011163565040345244436007040000851437026020111641390200238444360066400008981430230201119793619002384443600601000089814302302011200052100000044436005170000901745022020111677000101660444360048600008920410240201115933799)))
 (.node 2 (.node 1 (.leaf 444360048600009023475210201119627904105920000470592000089785002009011159415641059244436002470000739757517080111543129210592073360048600006446350270801116000544105920733600714000089955002008111191718441059200006106170000533939025090111645499900000444360051700009023475210201116281121000004443600777000090124502202011203570871059214436404310000683231029090111596085510592626360002100008892600160901115777523084394443600634000059383902509111194274621059244436001980000723760016080111917641610592073360036600007570500200801115673011012324443601009000089204102402011168440570395944436004860000901245022020111610599505697444360011600007950575170201115969317)
 (.leaf 9604444360046700006906310290201115991179105924443600467000066733102902011159036890869744436006560000580839025091111913499408261444360055800005962430230901115941139046224443600585000085343702602011162288121059228136004420000679833028090111587789910592444360048600006171475210201115809497105924443600170000088306251508011157609841059244436004670000601239025080111944401004720444360051700008748430230801115380565056784443600558000086553502702011199498981059260336001640000815360016090111560628710592444360036600157284390251411115697998098784443600293000061405251908111161140411059244436004670000585935027080111581363510592073360023200007495410240801115618926))
 (.node 1 (.leaf 5226444360048600008655350270201120147775105922963600477000067353302802011196446341059260336001920000793157517090111908147609590444360019200006170550180811116514162105924443600144000082276251508011157117340860744436002150000852845022081111563878110592212360071400005196475210911116045117047614443600986000088904102402011159418720000047536000000000490445022101111540299200000562360059200007339330280201115872781024454443600486000090134752102011160840061059252336001830000768452519091111541426810592189360014400008303625150801115445866105921893600232000079955251908011156354441059218936003340000763947521080111526884110592052360042300008622550180901115815085)
 (.leaf 3234444360048600008655350270201115949936105920000250164000083626001609111151484070403444436005760000897645022020112028258006190444360046700006746310290201119576338105924443600307000081765501808011193617791059218936004770000677250020080111568515410592073360047700007516550180801115849862105920733600467000049223902508011158903080498544436008450000740041024020111628090306190444360046700006832310290201116071574032294443600069000080725751709011189794511059207336004670000654435027080111610859905836444360068200008778390250901116277507043974443600540000073093702609011196060410913844436006130000894447521101111559278708746444360043100008488450220801115386388))))
 (.node 4 (.node 2 (.node 1 (.leaf 10592444360057600007345310290901116227608105920733600540000081394752108011159459110355444436008420000883141024020111950138508746444360047700007521475210801115975885105921893600790000090146251508011156468781059200036001700000738543023080111910312706190444360044200007399330280201115797391084384443600467000075193302802011157162581059223736002830000874541024091111934271510592444360068200008837430230901116009067105920813600341000088014502209111157090140966944436002830000722639025080111549083900000444360019200006875410240201116279309092344443600689000088904102402011169858730681544436004670000764935027020111571683510592399360046700007619310291201115877666)
 (.leaf 10592038360085800008907625151001115314214101754443600013000076555501809011194689030000044436002260000586545022100111916329209234444360080700008745410240201116603698035544443600664000088253902509011161052081059202436006820000528137026090111556413110592038360077700008963625151001115723423096694443600322000072453902508011156853080000044436000000000272145022100111909127610206444360065600007753410240201115251399087924443600613000083504502209011156213951059239836002730000697539025090111604686310592039360021500007202430230901115704266105920383600643000089846251508011160127781059200836007930000742037026020111609517810592366360050500006992330280201115673687))
 (.node 1 (.leaf 10592398360022600007228410240901116170249105920813600585000076634752108011192522711059244436000160000846755018091111501636610206444360055800007881430230201115934791105920001330689000066754102414011159705750981644436002930000720639025080111565253110592000360032200007893525190901115793336000004443600104000075454502202011161260391059261836008700000901965014090111933267310592038360057600008730650140901115333789105920001090257000078735002009111157119671059224536000160000823057517090111925223710592000360077900007030430230901119952467105923973600176000084555751709111164700991059200036001980000794457517090111488403910592012360051700008389650140901115975349)
 (.leaf 10592576360038400008572625150901119462009088734443600576000089575002009011159145680820044436000000000895745022100111510017710592351360045000008083410240901116028942090964443600207000054485002016111157948820971144436003660000901655018090111593946007439444360084500008618350270201120337283105926263600790000088714302309011163084591059230436003660271508035027081111544937310592081360050500008283500200911115941736105920213600567000062944102410111157892541059205736007040000901450020090111530229307816444360022100004484410241611114781177068144443600793000088724502209011159546471059262636007930000888343023090111962844808075444360028300005214500200911118945529)))
 (.node 2 (.node 1 (.leaf 9485444360055800008976450220901116082749105921503600709000058333902507111158105700681444436008070000895243023080111912739310592506332038401597174350270901119057239105921403600865000089636251509111155184681059233736003661664683231029090111594766610592242360042300006865330280901115923617095054443600558000090117001209111157359240950544436003340000886655018091111942213810592081360001500005169390250911115963567098424443600517000088904102408011175390281059244436006390000900045022091111632425610592444360042300009020525190911119001247068144443600807000089814302309011153796481059233736004670037861939025140111602501510592129360068900007594410240711115543809)
 (.leaf 10592444360071400007352350271011115542042105924443600849000090124502209111161377290743944436006270000465143023071111511137110592246360028300007547410240901115902252095054443600585000088004752116111146025361059200029705760000889552519091111936374110592444360042300007844450220711115861491105924443600558000088834302307111160600361020644436006170000882043023041111605635110592284360063403895900330280901115018037105924443600505000090466501409111190270400867044436002470000828350020080111622523708279444360059200008801450220911116085690097964443600790000086403702608111148184600681444436007770000787145022090111551209710592012360055800408800475210911115412398))
 (.node 1 (.leaf 1888444360066400008192410240911115681911105924443600592000081847001207111151075601059244436000210000799357517071111609391310592171360066900006327500200911119280694084604443600540000089764502216111161341410679344436002150000387645022071111894671510592227360077100008489310290411114892210084794443600558000066395501809111156755851059244436002150000674857517071111478589403242444360083700009038575170411115093823105923373600064000070574502209011154293010943044436002260000615962515161111602077910592000360032200004847475211611115556394105924443600357000086375751709111191023431059244436004670000890762515091111496462410592000360022100007769450220711114950731)
 (.leaf 10592444360002600006725600160711116136919105924443600714000087273702610111190737890679344436000080000440845022071111883975203242444360083600009026550180411115118819105920003600021000089565251909011182153481059244436003660396771845022120111584805010592444360059200009048675130711115702209085484443600366000050784502216111147672951059244436008350000901450020041111523678710592364360034100007413390251001115421110105924163600613000052814102407111159173730619144436006640000740847521091111475231510592444360002600007993575170711114932007105921713600714000073793902507111160109471059233736004420722851437026140111557534310592265360054000456499350270901115074451)))))
 (.node 8 (.node 4 (.node 2 (.node 1 (.leaf 10592444360033400008831550180711114815970105920003600517000061504302307111147597441059244436008070000880939025040111518745510592371360047718218461350271201114411903091734443600257072455506251516111148640661059241636007040000527647521091111573881808863444360015700008882500200911115505542105924443600148000059645751707111150703851059244436005920000892041024071111874376703296444360059209245185330280401115281485105924443600807000087093902504011151134600681444436004671708852337026100111421744410592000360044200007717475210711114796270105924443600021000090415751707111152964331059200036007140000864235027101111854307710592308360083600008613370260711114972348)
 (.leaf 6015444360056700003952330280211114615789105924443600803000088764102408011147161961059209436003340000867155018071111864332110592444360033400008941550180711114742971081944443600576000081184752109111149879901059244436001830000904365014071111551951110592444360083700008938600160411115237668105920003600366000087245501807111186591921059200036001920000596457517091111580768610592141360057600003656450220711114238856105924443600027000080755751707111147471961059244436001000000786957517071111547380610592444360061300009049650140711118442124105924443600592000090527001207111150580711059230836006980000752643023081111628461210592444360082500008813600160411119139468))
 (.node 1 (.leaf 5294444360030700007572475210201116229816105924443600799000090366001610111158960301059200036006430000773952519071111482301210592444360040000007924675130711119181537105924443600605000090516751307111150290831059200036003660000883743023071111905535209766444360074218408958475210801116581577105920003600366178339013502704111140688991059245436007140000707547521071111595932610592094360033400008927550180711114916037076244443600714000053384502209011148521021059200036002260000656255018071111419532310592444360021500007817550180711114666046105924443600592000090517001207111185188741059244436006820000902850020071111912764610592444360062100009008500200711115929076)
 (.leaf 10592000360034900006421525190711118712404105924443600592000090527001207111155956641059235636005400053654739025020111984768710592444360020700008029500200711115990302105920003600837000089936001604111154289671059200036008371677900045022090111924509110592444360070400007630450221001114686649091324443600621041364574752112111140898850714544436003070000811847521080111874428910592444360002600008075575170711114108648105920003600742000089444752108111190594780907244436001360000490445022161111559997406190444360082401836028310290801115950993105920943600334000087795501807111143712621059244436006690000901657517071111436530410592444360040000008993450220711115805358)))
 (.node 2 (.node 1 (.leaf 10592000360042300008986450220711115799508105920003600585000090025002007111162924560970144436005852322888447521101111616664510592444360059200008165700120711114323996082364443600366000067773702607111160432881059221636003660000729862515071111616857910592444360032200006721500200711114131836105924443600601000081847001207111137263361059244436005920000809070012071111440300610592444360071900009033525191611113973077078464443600366018673405002007111158313491059244436001860000663250020071111354181610592444360029300006744500200711113506711105924443600026000080545751707111164445731059244436001360000807660016071111602505610592444360024700009026550180711113890505)
 (.leaf 10592000178033400009033525190711118752567105921163600790000085823302807111148026991059233636005920000597927031100111388259810592216360038400006989625150711113875321063394443600709000047314752114011175443831059244436003490000794960016071111475326510592444360077100009023475211611115535240105920003600799000084243102910011138512891059200036004000000783845022101111619769910592444360032200006744500200711113853625105921013600069000062625501807111157160350619144436006130000745435027090111876591910592599360071400007134475210711115451393092354443600400000066773902510111193330951059244436007190000891352519071111875452410592626360060500008814410240711119059711))
 (.node 1 (.leaf 10592000360071900008814410240711114562790105921013600157000081155751707111164787940967744436005760000889260016071111615931800238444360027300006776450220711118439247097014443600627000085773702612011155666171059244436006640000653352519121111844101610592444360071400008986450220711116235948105924443600592000067447001207111164702821051244436007710000881647521071111573498308938444360036600006770600160711115940841105124443600698000078935251907111140295371059200004007140000762141024121111637712409824444360087005458205310291001115638075105924443600779000089765501807111159276060642544436007140000900352519071111393334810592000360082807948507330281201113489006)
 (.leaf 10592103360068600008181430231001112965532091154443600819000089204102412011154585390696544436006893806827752519100111676186106896444360071416865238475211011116106675049634443600714000089944752107111161257141059200036006340317642350020121111375107610592101360045000008915475210711113401282105920820410682000038935002010111142857610808844436007143908666947521101111602270210592000360042300686478575170811113760112103004443600837000089574502212011161755630726944436006130000594355018101111618972610592101360054910208745410240711115996148085904443600682069874905251912111162706651059244436008361400888343023120111294830008389444360071400008825390251011114180944))))
 (.node 4 (.node 2 (.node 1 (.leaf 9883444360089108218931450221201113046045105924443600835000087423902512011133316440496344436007040000904460016071111654317808389444360071400008987475211211113646698098834443600837020489516251512011130684781059244436008450000847933028120111504653908156444360018331695738370260201116170846105921013600357000078855002007111124902660267944436009513032860741024020111607548910592251360059211728318550180711112330695105922513600293000044904302307011155139860928144436002320000533845022071111178987006231444360000000005408450220501115521933099914443600366000048724102407111114801500999144436004130000840839025071111071293608488444360013600005724450220711111067976)
 (.leaf 7399444360000500004293525190501116046832094974443600247000054884102407111163565671015744436003220000854843023071111123681209497444360034100008325410240711110878412099234443600682000083574302307111103400230988644436008190000846243023100111642975409388444360034900008292430231001109995941098464443600634000066973000216111177160691059244436004860000669730002140111585924503309444360015700007986300020201118946078033094443600157000079863000214011148625010129644436006230000039030000150108744670802290444360062300000817300001501088456648000004443600623000001894502215011146371580320044436006230000079930000150108946546900333444360062300000831450221501091519962))
 (.node 1 (.leaf 3200444360019800000000300001501113482672022904443600623000002283000015010904730920001544436006230000024245022150109218917600461444360062300000680450221501091980279026524443600623000008683000015010909992410282344436001980000000000003150111348267202823444360019800000000000031501113482672029924443600198000000000000315011134826720281444436001980000000030000150111348267202959444360019800000000300001501113482672029794443600198000000003000015011134826720308744436001980000000030000150111348267202290444360019800000000300001501113482672030404443600623000010174502215011136797190337944436001980000000000003150109200352503189444360019800000000300001501113482672)
 (.leaf 3189444360019800000000300001501113482672031894443600198000000003000015011134826720254944436006230000028030000150109200352501350444360062300000741300001501092003525031894443600198000000003000015011134826720318844436001980000000030000150111348267203188444360019800000000300001501113482672031884443600198000000003000015011134826720318844436001980000000030000150111348267203115444360019800000000300001501113482672030774443600198000000003000015011137225760313144436001980000000030000150111348267203200444360019800000000300001501113745488031024443600486000000003000015010935042170310244436004860000000030000150109400276603102444360048600000000300001501113482672)))
 (.node 2 (.node 1 (.leaf 3102444360048600000000300001501113769375036244443600198000000000000315010945004120313744436001980000000030000150111348267203183444360019800000000300001501113482672031784443600198000000003000015011134826720327744436001980000000030000150111348267203102444360048600000000300001501113482672023344443600623000001603000015010949971150327144436004860000000030000150111348267203248444360048600000000300001501113482672032494443600486000000003000015011134826720326444436004860000000030000150111348267203200444360048600000000300001501113482672032004443600486000000003000015011134826720320044436004860000000030000150111348267203200444360048600000000300001501113482672)
 (.leaf 3102444360048600000000300001501113482672031024443600486000000003000015011134826720310244436004860000000030000150111348267202309444360062300000240300001501095987543010464443600704000005294502210010978053260155944436008240000139645022070111604099300280444360087000001300450221001115232018027254443600486000000003000015011133255680318644436004860000000030000150111348267201635444360087000000557450220701115814684025814443600486000000003000015011133255680278144436004860000000030000150109746517801559444360062700000516450220701098988921015594443600592000013394502207010991624480318644436004860000000030000150109795543802400444360087000001435450220701115240616))
 (.node 1 (.leaf 2661444360048600000000300001501098444491031864443600486000000003000015010984444910239644436004860000000030000150109844449101601444360062300000376300001501113325568020674443600921000013394502207010998642880053544436006230000150662515100109975390303186444360048600000000300001501098919975015594443600870000014654502207010994385340155944436010010000133945022070110069065902601444360087000001417450220701100024010016434443600870000013964502207011007719280300644436010170000145345022070111593740301588444360084400001417450221001114280158004314443600623000015066251510011000807780152244436006230000100945022100111581939002366444360087000001379450220701115922271)
 (.leaf 3089444360087000001528450220701114885987036104443600486000000003000015011141986700303744436004860000000030000150109964778101870444360103500001435450220701102501744016434443600862000014274502207011157314800171744436008450000086745022070110056447201717444360089600000886450220701101012971017174443600928000006154502207011007354580000062636008480000141745022070110076635603056444360087000001524450221001100895936017314443600623000010355002010011008362310202944436006230000109245022100111475195002008444360002600000687575171001115328938012804443600322000006556001610011013830340236644436010960000139645022070111598157802366444360087800001417450220701101098512))))))
 (.node 16 (.node 8 (.node 4 (.node 2 (.node 1 (.leaf 2445444360084500001369430230701115991346000004443600848000015514502210011010233940243144436004860000002330000150110012953801643444360002100000774450220701101312364017074443600849000014704502207011018664630326544436008620000149045022070110164883802675444360087000001542450220701101278127000004443600848000015184502210011153137990001244436008480000152845022100111508651200945444360062300000655600161001115772342022594443600623000003953000010011133255680361044436004860000000030000150111431144701785444360048600000012300001501100369329036394443600879000015244502207011016544050332244436008780000137945022070110200328802445444360084500000916450220701115127605)
 (.leaf 880444360084800001575600161001114786227016094443600623000010564502210011162854680361044436004860000000030000150111435047703610444360048600000000300001501114350477036104443600486000000003000015011143504770361044436004860000000030000150111435047703610444360048600000000300001501114350477036104443600486000000003000015011143504770000044436006890000369255018070110142182201643444360002600000296450220701101666880016434443600558000007744502207011152771010244544436000260000038345022070110176216802675444360083200001443450220701102158623012174443600870000014794502207011019142650167044436006230000083145022100110219106503610444360048600000000300001501114390197))
 (.node 1 (.leaf 3610444360048600000000300001501114390197033704443600486000000003000015011143901970321844436004860000000030000150111348267202948444360048600000000300001501100846641029474443600849000014654502207011164637031059238336008450000105645022070110256876805126444360084500001321450220701102026870013724443600845000014794502207011024765080066644436007710000111545022070110219336000000000360084800001217450220701102257657013374443600623000009524502210011150720860120244436006230000106545022100111525993300952444360062300001172625151001113598354023984443600623000001543000015011010841260000044436006890000511355018080111597273010592444360065600005943550180801102763036)
 (.leaf 3191444360087900001435450220701103364218038904443600888000014904502207011028463381059238336007900000038345022070110264676105126444360084500001245450220801115048171051264443600742000013214502207011025402440000045736000210000103845022070111636811600000444360006400000987450220701115126653000004523600528000003834502207011031466650108144436000260000098745022070110247450507341444360062300001379450220701102531131026624443600623000008504502207011029455890123144436006230000058960016100111481618800546444360062300001060625151001114816950036104443600486000000003000015011013208080337044436004860000000030000150111348267206659444360071400005275525191001115472876)))
 (.node 2 (.node 1 (.leaf 505360098900000952450220701103019311016434443600022000003224502207011020429960478344436008450000075837026070110258857605126444360083200001261450220801103193220000003553600845000015104502207011024651200209044436005280000123045022070111571480000086444360052800001226500200701116047661023764443600623000009164502207011032012570239144436006230000069460016070111534686501151444360062300000645450221001102990319011194443600623000007716001610011147978780284644436004860000000030000150110155666610592044360069800004513625150801102836294029474443600845000009524502207011029328750478344436008450000059333028070110276527100000444360084500000556350270701115860817)
 (.leaf 5126444360084500001321450220701103145364000004523600010000011494502207011030738030000048840808360000125645022080111464713500238444360080700004341450220801114234722000004443600782000012855501807011160623770000046036006230000056460016100110309032402986444360048600000000300001501101791684000004943600113000042035751707011030892130000044436007900000572660016080110346482610592420360110100006113500200801115866982031544443600779000053965501807011032475610439744436006170000376852519070111631740500000444360002000000345450220701115835466047834443600793000008614302307011028334650512644436008450000086143023070110297545305126444360084500001283450220701103205054))
 (.node 1 (.leaf 238444360000000000680450220701115360966047354443600845000011154502207011030359810000044436006170000123045022070111522155400000444360084500001510450220701103391225000005793600793000004684502207011031803480000044436000000000039545022070111517687700786444360002600000426450220701115393478000006263600807000019034502207011159383980000048736008280000224145022080110355600800238444360080700003187450220801102992814009424443600623000011336001607011032635910145744436006230000073960016100110302792502470444360000600001530300001501113325568000004943600704000047465501808011036957670161644436009460000563552519080110411672506268444360068200005943550180801115488474)
 (.leaf 444360084500008819525190801103699075000004443600908000088574502208011038454680355344436010110000861547521080111630175901643444360000700000867450220701115134124033474443600845000009924502208011162004121059234336004000000107645022070111594638500000444360083200001427450220701104079999000004443600585000004264502207011033840770023844436008070000387045022080110296061200000502360094800001401550180701116226290000004443601141000009633902507011033724140000052136011410000192539025090110295912900000521360114100000618390250701102638462028654443600486000000003000015011133255680302744436006860000439055018070110401435000000444360084800004320475210701103542806))))
 (.node 4 (.node 2 (.node 1 (.leaf 444360080700001341450220701103979929010244443600845000007414502207011033487030512644436008450000130839025070110448142700000507360000700000901450220701103686231000005073600000000009014502207011154197530000045236000110000085745022070110353789902037444360063900000864625150701103728604015814443600623000007635501810011143423410297144436004860000000030000150111468608910592370360079000005616600160801104117393058384443600714000064805501808011036931691059244436008460000773755018080110461756000000490360001100000367450220701103364957004204443600001000003834502207011036097270414244436000000000085045022070110379711400000444360000000000468450220701115645645)
 (.leaf 508360001600000199450220701103886042000005273600008000003674502207011037052920078644436008490000064945022070111659081001355444360080700002804450221001114432254020374443600832000006286251507011162792950000053936008480000117262515070110332078201457444360062300001164625151001116205114007274443600623000005246001610011163663511059229936007790000598760016080111606081810592396360094000006421525190801104952925105924443600848000076215751708011046410121059244436006430000725855018080110493412700000444360060100004472650140701104803173000004443600400000004364502207011160575880000044436001830000034545022070111595381400420444360001100000426450220701103839976))
 (.node 1 (.leaf 5126444360084500001325390250701104890227051264443600845000010503902507011045677560000044436008450000153545022070110474330500000444360001900001230450220701116450757015004443600870000014704502207011045237710000052136011410000422239025080111571427100000453360085800002854625150901104057569000003533600623000007716001607011044956771059240136006230000072660016070110406219702445444360068900005570550180801105171906024454443600689019056575501808011049409190439744436010830000622752519080110497131400000444360087800008649600160801104736009000004443600856000045195501807011151949740042044436000000000043645022070110421593604142444360034900000500450220701104524622)
 (.leaf 555360000000000707450220701104368637000004443600273000013004502207011044544000000044436000000000124545022070110447769900420444360082400001283450220701116182732056974443600779000026814502208011152985170000044436008350000031760016100110436355800238444360085800002888625150701115761298000006263600623000011846001607011045536940358444436004860000000030000150110318314002568444360048600001573300001501113325568043974443600689000055705501808011048571231059235736008900000642152519080110439147110592444360094800006227525190801105064779046034443600558000075945501801011162758520355544436008280000453160016070111634440505126444360074200001465450220801115300198)))
 (.node 2 (.node 1 (.leaf 5126444360000000000432450220701104657398000004693650022000007074502207011165780850000044436003070000071445022070110511212900734444360069800000725625150701105147123043974443600558000075705002001011053617321059244436007660000786957517080110533426410592444360089800007789575170701105505451105924443600400000039654502208011047391200000044436003070000039545022080111606391600000444360000000001010450220701105016030000005793600015000002964502207011153332740076244436001040000025743023070110511317200000444360080700004476450220701104218971000005943600807000022854502208011049695470355444436008350000237460016080110482118000000207477114100003364390250801104757234)
 (.leaf 4397444360068900005672575170101105179512031124443600585000087804752105011155298560000044436000000000182545022080111502556004195444360084500001293390250301105386648015124443600026000004024502207011059468360000055736008070000440845022080110570015600000563360080700001839450220701105948728000005883601141000033273902507011052534380336844436006230000365430000150111332556810592307360068900005069550180101116686803105923213600714000058555251908011056478811059227436008460000779155018050111648816310592444360068600007734600160801116672039000004443600183000004684502203011052925900042044436008450000048145022030111528284906814444360084500000425390250301116065117))
 (.node 1 (.leaf 5126444360077101711390430230301105710482000004443600400000011793902507011055978860000044436008350000249947521080111520938800238444360083600002442500200801106913074000004443600026016526193502709011136501440000044436008580000290762515090110521737200734444360085800000769625150701114755333013934443600623000007956001607011049255221059242936007140000737055018080111657224510592444360071408156140525190501115980045105924443600832000077915501805011152208850244544436010220000762947521010111530293105126444360015700000454430230701105686611000005313600010000003674502207011056315670112844436006430000352645022070111469573000000444360080700003309450220801105975628)
 (.leaf 3555444360083500002294600160801105656201105921953600819000027906001607011055783631059235936006890000541155018010110579103110592382360071400006001525190501115240480105924443600799000063585251905011155958020419644436007140000778760016050111594598610592444360089000007461500200501107111452002384443600842000081864752108011064970500323644436008450000051645022030111507788904619444360084500001321450220701105938145047884443600807000012484102403011059088060000044436004230000119343023030110618439002360444360087100003860450220701106397364000004443600423000021705002008011065066610000044436008350000677060016080111641198000000444360087000004362310290801104667242)))))
 (.node 8 (.node 4 (.node 2 (.node 1 (.leaf 444360085800002960625150701105836212021814443600639000007766501407011056918160241944436006340000081067513070110553837403392444360002400000669450221001115591213040804443600689000038836001601011147558260859344436007090000639452519050110601589204859444360085303748762525190501116145867047154443600870000086434752108011072500200512644436008070000638245022050111525076501003444360080700002168450221001115120005000006263600835000037306001608011171083420000042436007900000612041024070111452201400000449360083700001956625150701114776245013294443600643000008106251507011074618970140344436006892426662052519080110606116603554444360068917995320625150101116521268)
 (.leaf 6190444360085600008743500200501107273018000004443600845000032264502203011065740450410344436008450000077445022030110622888200238444360063400005638625150101117427466105921953600549000041475751709011076152380140344436006890000534055018010110653538105125444360083500008708525190501107825750051254443600828000075965251905011176733190512544436008390000895750020070110730253904876444360087500008677450220801107353305030834443600576000088676501405011072167090323644436008440000429445022030110720935600000532360000000002820450220501106807980000004503600000000003364502207011066532280000044436000000000064445022070110703469502697444360034100002314450220701115648429))
 (.node 1 (.leaf 564360080700004331450220701107819925049584443600807000046294502210011160482850076244436011410000720639025080110781916101404444360068900003631550180901115582852038004443600024000006694502207011081818510000062649200240000066945022070110798674310592437360068907455588575170101115779062074624443600828000089697001205011153234331059244436008320000887245022050111570280603236444360084400004502450220301116638899052404443600477000040554502203011165309890398244436008450000213245022030110689154903276444360056700003640450220701106963588003724443600988000036974502207011153470570000057146000260000237055018150110868470304766444360061700005036600160801107792984)
 (.leaf 10592444360087741595952475210101116158711105923843600842298076565251905011159235871059244436008280000887245022050110831345206813444360085310788836450220501115847088046414443600845000088364502205011073987780423644436009320000891645022030110793403500000444360013400005991450220101108450633035544443600807000060274502205011174190600116544436008070000698545022070111563518102445444360110100007364410240501116479988007624443601141000074873902505011176129360355544436008440000679827031050110838767110592334360068900004893550180901107913545105923133600689000036605501807011081402630157644436008780000077757517070111619215404097444360002400000679450220701108316585)))
 (.node 2 (.node 1 (.leaf 10592422360087900007601475210501108584249105923843600835000077365751705011084543771059240836009190000881845022050111743954104916444360078200008872450220501108077926000004443600032000035314502205011166739680000054536000010000047045022030110814918003553444360084500000714450220301107777351046464443600704000005184502203011076844430464644436000000000051845022030110768337303153444360066901172498475211501116803712000005653600257000035805501808011078787670140444436009580000737250020050110819065400000626360002400002449450220701108181866065004443600885072162074502201011157085350540244436008281919896970012050110831043710592161360082824028970675130501116294774)
 (.leaf 6815444360077125747297450221401108091364051254443600100159465424502205011089567170000055045600240000567750020070110818925100420444360002600004948575170701107715852105924443600828000077155002005011160579401059244436007932667881845022050110830546900000545360000300000218450220701116101049035544443600000000014814502207011161733560512544436005850000649545022050110805163003193444360112100008781450220501108924797045594443601159000086614502201011086175830000062448200240000331745022070111699138600000444360002600002519575170701117089642056974443600709301371744502214011164493510991444436008031661847137026050110858213310592000360088200008745410241401117819424))
 (.node 1 (.leaf 10592444360088200008322310291401117251092051254443600807051171704502205011174504640000044436000000000019945022070110825863700000444360000000000124450220301116935434000005363600639000057754752101011085320410000062650511430000448735027090110874292306516444360082810057601475210501118080776105921613600828272178317001205011090745371059244436008192721820531029140110863762300000444360021508465251450220501108818612000006263600000000054064502205011162544510000044436000020000021845022030111697907603555444360083905046566450220801108593143000004443600486000052865002001011160752490568744436000240000524045022070110866027608924444360085600008379310291401108815402)
 (.leaf 626475034900005162450221001108636066002384443600005000001814502203011173140220000044436005280000416555018010111750444203555444360101900008781450220501109276532036074443601159000043803102901011174080220000047236006340000503245022090110898302810592444360025700006377575170701109162129105924123600828316275744502214011093262521059204536008251912837833028140111737338110592444360079021556574330281401109003036105924173600779000050833902512011160681740166744436007930000655045022050111758145900000444360080712607009450220501109022420005544443600020000002184502210011088142430048844436001040000035745022030110887762400000514360063400005141450220801117258091))))
 (.node 4 (.node 2 (.node 1 (.leaf 4138444360089600004360450220901109158350041384443600962000033703702607011170956110610244436000260000475757517080111742155010592292360082800008780475211401117664460096044443600803000075744502214011092579961059244436007932625892362515050111751847609137444360084603068516350271411108781273002384443600000064743454502205011159994380512544436000000000189145022030111747075805125444360112701102329450220301108542060000005783600643000069774302301011099999470355544436005920000824145022050110959212904408444360060100008781450221401109309523048944443600634000072723902505011177248151059206036009730000612952519100111634470400238444360100900006435525190901117311692)
 (.leaf 10592362360074213597116450221401117406338105922063600686260682414502212011091175821059200036007040000826831029121110923158200420444360070900006236410240501116130603007024443600226000045044502205011173272051059241536006230000552250020010111807302500000444360068900006248575170701109294774074924443600000000056537001208011158092751059200036008250951846135027101111610909510131444360081900008602370261211109547675071814443600837211074912703114011094507670000052236000150299570745022050110958769100000462360000000005025450220511117261915014044443600623000085684102414011099352660564344436007660000871045022120110972461604894444360069800008635430230501116775072))
 (.node 1 (.leaf 2981444360115900005492330280101109562679039954443601141000064664502207011094549791059213336006690000889552519050111801042410592292360081907938868525191201109362383097214443600836132989755751712111094001360000045136001980448444543023140110946451100000459360000000000644450220501109227686035544443600000000037234502203011175192470602344436006340000874843023050110983129005126444360115900005628330280501109817713024454443600870000060174502208011096016810903044436008910000679833028100111596058510390444360068917418988525191201117499523096044443600793000089646001605011099501680960444436008241741888152519120110943588510592091360083932937174450221201116030096)
 (.leaf 10592161360077922228665450221201117571038056974443600824044568134502212011172463691059200036008281832845133028101111764941909392444360079002918783430231011109989133105920003600656266080492903012011095184320000052536000070000255845022051110931510600000444360063913167327450220501109762673000004443600000000046974502205111086843950508744436000150783164645022031111585373905125444360001600005156450220511109150635024454443600911000037384502203011093902670523144436008450000883645022120111621701110592444360085800005954350270101110178988014044443600836000066345251901011103838720000044436001040000777167513070110983221510592280360093406188930475211201116223448)))
 (.node 2 (.node 1 (.leaf 10592086360062707698975575171201110306860105922203600656061889236251512011096234271059234736008901529899555018120110944091310592134360070402878317450221211117195583000004443600698000066414502205011094132010659944436001860921391845022051111727484905125444360019800004067430230501109418011000005863600164000031266001601011170493741059237536006690000624262515010111816839910592198360076632277682575171401109788156105921983600698197786654502212011160311691059200036007043227883645022120111774111210592161360074209138836450221201110253670105921673600704028346862503210111157910150569644436005761519833335027120111736284105125444360000202833071450220501116173680)
 (.leaf 5087444360018302833552430231001109402773051254443600198000037444302305011159296500309644436010240000711847521140111623360010592000360068900006824700120101109756098105924443600689000063406001609011099579911026344436006693241904762515120111578294410592183360084540406231500201201110037005105920983600639188388465751712011161211801059234736008250749776555018050111587854610592134360077904368614450221011109239048105920003600828000085343702610111099179280828944436008070000623445022101111608491900000581360000000001745450220511109234346043974443600116060522564302305111091984380000044436006230000425745022011111032371104121444360083500008710450221211118071301))
 (.node 1 (.leaf 9604444360077100008729430231201109734892105926093600719000088364502212011165064160512544436006890000775370012080111017285905125444360089000007928450220101117722974038284443601159000076985002007011175380190359944436009170000637362515080111780381710592327360068900005779625150101115878040105922543600779398384635002012011165168921059213636007040000881360016120110984081410592329360010004323485430231001109533937012184443600000000046685251905011098100620000044436006640000617345022050111102513410592444360109100008685370260701117609317000004443600916000076214102408011174440551059244436006890000652862515010111615144209039444360066400006629650141001116705828)
 (.leaf 10592444360085813766194475210501111078581105922673600799408685884752112011179530281059200036007792727848845022120110955292408837444360077117665930450221011117731722000005904650060000016474502210011174884980553744436005580000482447521101111732190405488444360001500001782450221001117402426024454443600022000018284302305111099990590479744436008460000726335027010111611762801403444360063400006455500200501110771319014034443600686000064756251505011105508891059200014007770000880047521101111099059705611444360003325334224450221201110010574046234443600001026235274502210111175136180666744436008370000700945022101111019269300238444360022600005897675130501117964212))))))))))
 (.node 256 (.node 128 (.node 64 (.node 32 (.node 16 (.node 8 (.node 4 (.node 2 (.node 1 (.leaf 6052444360068900006013625150501116646938105920003600682231161194302312011159635171013544436008070255874541024101111766126605691444360083700004535450221011117417659050874443600022000041684302310011098814140512544436008483822840839025101111075621106190444360086212488174390251201117577994105924453600835000088994502210111102033931059244636007710098894447521120111784198203805444360068900006257625150501110152340105920773940782421786144502212011180489131059244436006050418852845022120111774915010592182360082821746939450221201111032815105920003600689417183174502212011099678290915444436007190000889260016101111096852109440444360068200008813600161011118052898)
 (.leaf 9362444360071400008801450221011110366069091484443600828000071143702610111100350590462344436000040000301145022101111721053800000444360097700008872450221401110620653000004443600971000038935002001111103774651059241936006820986848845022140111040941210592328360070916348916450221201110323802105920003600777358259304502212011103833280580044436002070000464845022101111577941507910444360082500008596430231011117143622000004443600982023235675002001011103268901059217236008070000824145022100111108510505125444360068200007484600160501110865170105924443600689000052296251505011159440731059244436006860232466245022050111061635010247444360076600009017700121011115931776))
 (.node 1 (.leaf 9907444360061700009001475211011118112284000005803600709000086945002010111106098310512544436009211709869843023140111087281810592320360080300008098450221011115897362105924443600825000087104502212011102561401059244436007900000848741024120111599190700000444360082834326813450221201117552535097294443600766070188364502212011109286670990744436006170000891057517101111127848509840444360048600008837430231011118059566091484443600558000087644302310111108129940569144436005850000530355018101111087959705488444360077100006598450221011110103615079104443600835000089574502210111108629700512544436006640000853839025120111040286710592444360071905395685475211001115900064)
 (.leaf 10592000360077100948884475211201116513602049754443600848009477405002005011182521370355444436006890403690347521140111597518708059444360025700006364450221011110367322053234443600835000056614502210111174423840619044436008350539528137026101111075152705125444360079300008383450220501110637694105924443600824039853194302312011159549741059244436006820000790552519140111113881410455444360061700007881250321011110961665091484443600585000089425251910111107644280805944436008450000887143023101111580899107224444360030700007297450221011111229845051254443600842022885463702612111178613890879244436008072840848845022100111089654010592444360085600004816430230501116860073)))
 (.node 2 (.node 1 (.leaf 10592444360077702268219430231201111415084061744443600643190376394752104011180946800000044436008253190838345022120111584617809773444360077900008818450221011118566523080594443601120000083182903010111101354050887744436007710000893470012161111089103105125444360019200008357430231201111374418000004443600979000034375002001011105472921059200036008240000802045022101111743815510592000360083700008206350271001111692779105920003600845165789764502212011161909371059244436008240000663045022050111766523110592444360071918928584350271201111173302096044443600689000067125251914011119005371059244436006391377369452519040111561437010592063360079335098836450221201111226844)
 (.leaf 10592444360077700008223290301611111106889091484443600232000088534502210111115737230946244436004500000852545022101111577913206190444360079300008709390251011118282748051254443600226000038944302305111159008750512544436010002475883743023140111641941210592300360077102248118475211011115816097093054443600790104686144502212011179087180977344436007710526901450020101111198322306455444360051702248869500201011115037936088774443600664000089726501410111110044660619044436007710386852835027101111157714910592000360083700007884330281001111215794105922893600837207688854502212011184702261059244436008980000674552519120111083734010592341360081900898080430231201111159462))
 (.node 1 (.leaf 9846444360060100008967525191011111456916105922713600803000088374302310111123356851059200002408350000849837026100111770706910592000360083700008168310291001112152553049054443600689185873325002005011146754970693944436007662297895457517100111209456008620444360066400007226390251011118059479080594443600215037649815501810111110898940494544436000600790482745022120111108888510592338360068219876010450221011118047894096044443600682192369544752114011112716451059227136008360000894155018101111216300810592613360068600005923525191011116022829105920003600664021951734502210011114440551059200036006170000887570012100111223394809604444360068918376131650140501116510647)
 (.leaf 9148444360000320493396450221001111058263080644443600017000046384502210111117409080965244436001340000572445022161111128725908793444360066400003811450220101118119981067084443600837150066414502210011161719201059221936007711103752345022120111611549210592047360066914058049410240711118365178082674443600689110379013702612111178699291059235236006133617705043023120111785643510592444360065600848518330280711112096350105922443600018000041234752110111158821090684444436000070000348945022050111841148610592000360083504988763450221201111658977105921933600777075072974502214011119639621059221936008243074760245022120111208952410592444360076628727574450221201118505702))))
 (.node 4 (.node 2 (.node 1 (.leaf 10592444360085816606298450220401118172648105923603600836000084884502212111179961950988444436006560498871045022140111591068002815444360003200834095450221011111374128075664443600232000082414502210111158800541059207236008070000522145022101111196540505125444360082427487116450221401116256676052724443600858422488524752101011157473000806444436000000000393645022101111184163410592600360070406218864600161011111899353105920000330835033787104502210011118323291059234036007771193760245022120111604200906813444360074200006144450221201111727593080644443600682000071714102416111119949121059237236000220000468147521101111197776110592170360065611848836450221011112484174)
 (.leaf 10592188373074207387805525191211111902386105923523600257338677864102410111179515881059200036007903722853839025121111231530808064444360077100008419700121611111465964084554443600226000053574102416111124941510808344436006820211705535027161111228665110592178360079913707496450221011118218980105921583600779000065075251908011124346801059240236004310479314639025100111198121808064444360023202118103270311611112898896080644443600771000090287001216111181662240806444436007710000835670012161111756537108064444360077100008204700121611117717224105920003600828136288014502210011120332160991444436006342253465143023101111191085010592387360035700004217430231001112184080))
 (.node 1 (.leaf 10592444360077100009028700121611112623849105920003600257000089597001207111128408930000055636005050000375439025100111176742206915444360028300007454410241611114995323105926263600585046888014502210111121075101059231936006270958705745022140111355741710592444360085832145958450220401116447185000004993600000000023424502216011116553760806444436006270000896362515161111805998305521444360006400008301450221611115672404000004443600221273484884502212011125535701059211936007770000769352519121111282200007930444360052802077303450221211115687276071214443600567168156883502712111148042460904844436001480000654341024071111227907600000499360000000002883450221011115352383)
 (.leaf 8064444360079900008984625151611115879802080644443600015000035064502216111122064730689444436003340000872943023161111310548210592279360056700007934450220711112500128105926263600819083489314502212111128778770905444436006693842899345022050111276129710592000063057600008614450221211115864881004204443600664000067143102912011183994570698344436004230000667739025101111239806608064444360000000001601450221611115814589066114443600000000029694502210011179359391059206536008370447773657517100111823561210592317360061719367417450221001118289778092934443600567000078533902512111161359141059210636003411996876345022071111834723008064444360000000001315450221611112375381)))
 (.node 2 (.node 1 (.leaf 5734444360062100006115410241011115773573068144443600517000054404502212111155561511059241436006822212693945022140111389648007469444360059205858986450221401119093155105920003600686007349044502207111125886100747044436001570826343043023050111458281108787444360038400007935350271611112657517063724443600176000046084502216111179658360000044436008491139892643023120111317398810592031130030717174923475211011118130781105924443600890092723103502712011166486741059244436007421651664145022140111878685710377444360042300007805525190711118631461066114443600639000046514302310011123427301059200036006560000699745022071111582579310592055360065600008739575171011113096669)
 (.leaf 10592221360051700008650410240711115847099087754443600592000076613502716111183134830681444436000000000372445022101111278002810592542360079303217495450221011118382102105920003600828130380974502210011158322500921344436006340000696645022071111856626110592444360035700008815500201611112940534087754443600704000085343702616111133489660000062636006050000354445022070111252952400000444360033400002011500201611112397993068144443600842130379974302312011184581350000044436007142423885345022120111607028810592000360047705638743500201011115912352068294443600929321690095251908011153297180761844436007932874830252519071111702863210492444360041304408292430230711118786520))
 (.node 1 (.leaf 8787444360043100008408390251611115931685103774443600013000038764502210111126559790681444436004670000330545022101111810622606814444360017021765221450221201112842449000004443600890176486463902512011155969510767444436008771011899447521050111581249610592444360085300008591370261611113103969105920003600226000085853902516111137373071013444436005850000840839025161111552249806611444360022600006097450221001113000675105920003600221109954404502207111127524851059237736008070067741745022101111342338210592423360079927247545450220801116059003076744443600896109989864502205011137297301049244436000480000490445022071111892475009809444360000700003554475210711115765185)
 (.leaf 524436057600003905390251201116403966056974443600875109989565251912011135074850960444436008193103231050020050111603046009809444360036600008241450221611115949863105921113600558210786053902512011141005350381744436000000000544245022100111574341301199444360024700002996430230501119130320020104443600104000042834502205011133813390565744436009200672903660016050111630241010592444360023200008781450221611113619828056974443600349000047174102407111139703630978044436005050000868443023161111568417910592000360003303148123410240711118579287000004443600000000043564502216111182487580569744436008700194863641024120111383204910592474360083703126502310291011113160070)))))
 (.node 8 (.node 4 (.node 2 (.node 1 (.leaf 9604444360069800002310450220501119089462105924443600601118185884752108011186276590669344436008851797901560016050111954880210492444360023200008763450221611113599107091714443600357000079383902516111185834550980944436007990000848637026161111609447909809444360000000007731450221611113166336105921113600000000034464502216011130754460510544436000000000834045022101111358795200000448360000000003567450221001115584169105920643600682000088014502208011189189901059244436001980000900147521161111639290309919444360032200007369410241611118459700098094443600766000085773702616111137573711059211136005670000874239025121111868631302615444360000000003152450221001113386762)
 (.leaf 1199444360000400003581450221001115267323103284443600221000089934502207111151689001059221336008370885888545022080111615434810592444360006400006772500201611116050320105924443600019000090377001216111186663441059244436001000000901245022161111685983010592444360021500008877600161611118710349105924443600021000090117001216111189634911059244436000190000904170012161111642947210592444360021500008020450221611118516957105924443600232000084384502216111184459291039844436001760000812337026161111584085609817444360074200008602370261611116149075098094443600771000085913702616111160606730119944436008240062796741024120111629107008372444360088833898939430230801119891913))
 (.node 1 (.leaf 8142444360086719049025525190801115782314097934443600100000080204502216111159928991059244436000190000902870012161111594726210592444360001900008997700121611116072495105924443600232000085734502216111137653790119944436008670538862041024120111633062506352444360087504268528350271201115824626091494443600384000071164502216111142280971059244436000190000902870012161111662934310492444360013600008798575171611116004367099694443600028000083396751316111162274160467944436000000536360345022101111336690307906444360083700003489450220711118927145101284443600064000079445751716111191416610860144436001700000705043023071111606022810173444360043100008607410241611115865867)
 (.leaf 10592444360014800008941550180711114650527046794443600055000019644502210011137845400976244436002210000656245022071111561989610592368360017000007865475210711115687411104294443600719042087284102414011189040341059244436002210000833857517161111486454910492444360019200008561700121611114805770105920003600232000089444752116111158378381059244436000190000899262515161111518979410592218360068641308986450221211116305989105922183600771005889764502212011163871441059244436006981056889945022100111932391210592444360001900009037700121611115535175105924443600232000089864502216111159928490886444436007930000607435027161111408780410592218360068600008944450221201116423815)))
 (.node 2 (.node 1 (.leaf 10431444360001900008050700121611114629589105924443600528000089115501816111157061361005944436004310000856739025161111569436410592218360082409598986450221201119213413105924443600413000069544752116111147873411059244436000190000813070012161111597150210330444360001900006765700121611113620720104134443600005000078384502216111159336081059221836007710300900045022120111646728700000583360077900008931450221201119293597022164443600682000053793102908011142127690426944436007660416448835027050111639535210592000360084600008633390251011114370832092514443600896326490506751308011162942201059244436000190000843845022161111880189510592444360030700008929500201611119580701)
 (.leaf 10330444360040000006078475211611119199259104314443600064000080556251516111153444241059244436001000000899360016161111621491610592444360006900008656525191611115339579105924443600170000086364102416111141770211059221836008240000900645022121111931814610592218360062300548263475211401118706239042694443600643000075463102912011158307230280844436007770413737431029120111916733310592272309044204125788450220811119322094105924443600207000088704752116111161199961059244436001760000869450020161111480098610026444360001300007934450221611116632085105925463600803000061504302312111148108101059221836008240053900045022120111938997810592218360083200009000450221201119326983))
 (.node 1 (.leaf 5798444360076622254384330280501114329478105920003600853005286684102410111160292351059244436002320000902952519161111932047810431444360066900007134475211611119091045105924443600232000085555002016111146066070919144436000220000295847521161111450669010577444360023200006299550181611119187150105922183600540000070183502712111145532760569744436006820000860741024020111522625300000559360006900002898450220501114262882092054443600835000073034502207111187585721059244436003660000876345022161111597716010592444360017600008978500201611115955217105924443600021000089674502216111160495291045844436004230000864639025161111573177510592444360001900008907625150711116355687)
 (.leaf 10592218360068219077765550181211118987101105924443600009000064264502216111191032071059221836006340000787350020120111485957808482444360087008379012450221201116446051042244443600634000060533102908011151137500422444436007422613638435027080111540473909467444360087000008597390251411116008347105924443600247000080104752116111163329531059244436002730000668050020161111522039910592444360036600006399450221611114794868105924443600232000089936001616111161746121059244436002320000887760016161111919007110592444360010000008550675131611116619555102314443600689000086557001216111161300000000055936006820000838841024020111471689910592444360023200009042600161611115502573))))
 (.node 4 (.node 2 (.node 1 (.leaf 10592444360022600007731450221611119092171105921653600790004769682703112011151784090496144436006230000384937026080111461626710592425360003200006051370260801115149225105923733600782164671873902512011159964221059244436000040000801457517161111878931510592444360034100008012525191611115343223105924443600148000090306501416111159234251059244436002320000903960016161111617800210592444360017000009045625151611115847653105924443600686164289864502212011189370331059244436008530000728541024080111624057308928444360084500007885410241201115711481094524443600832000070574502212011191397451059244436004000000900045022161111498954109725444360002500003993525191611119182984)
 (.leaf 10592444360006900008966550181611116412671053764443600682000034063902502011146616830817044436007190000860741024140112038957510592444360002100009052700121611115808668105924443600400000090174502216111190441941059244436000480000898645022161111883865710592444360061300009049700121611115598444105920003600257000085156001616111154232351059244436002070000601362515161111918413010123444360058500006910625151611115289659105920273600366028579995751712011150095481059211736000180000648350020080111602427610592444360068200004687390250801115371352105924443600033000067235501816111149115861059203036008360820512831029121111506852010592444360003200009049700121611116234318))
 (.node 1 (.leaf 10592444360028300007844450221611116067920105924443600134000058935751716111158995890274544436008650000821943023020111626477009914444360097301665498475210811115259932105924443600283000078714502216111160249751059244436000190000864267513161111529297710592132360070900006675290301201115805266105924443600019000090517001216111162430011059244436000280000901245022161111645246810592444360036600008931450221611116667703105924443600021000090497001216111157771971059244436007190000904770012161111988864604356444360084804998534370261401115765815105924443600176000090315751716111152388291059244436003490000902850020161111598507510592444360001900009051700121611116077516)
 (.leaf 10592444360023200008909600161611116300433101664443600055000081136751316111167081691059205036007140606513527031121111501021905446444360068200003986390250801115750812105924443600032000068036751316111157292501059244436003410000902347521161111595953910582444360023200008495650141611115742544062264443600232000051323702608011158269061059262636003660000900645022161111923502210592444360002800009034675131611115453417105924443600576000090417001216111151586381059200036008240000659431029120111575008307379444360083603877285410241401116267810102194443600828000088994502214011158222191059244436002320000905067513161111949837610592444360000800009043625151611119907371)))
 (.node 2 (.node 1 (.leaf 10592444360000000009030550181611116351293105924443600013000090316251516111165329751059200036002320000848845022161111912312410592444360002700007941675131611114996186105921813600467000049044502202011159658241059244436003220000904157517161111936861910592444360001900009047700121611116164765090274443600601000049044502216111157648211059244436008390000498329030121111506622210592000360055800007168450220801115974934105924443600247000081286501410111192046331059244436000190000905270012161111633545010592444360005700009015600161611119674245105920003600803261789304752114011198574551059200036000000000883155018161111623868110592000360081900005199310291211115125771)
 (.leaf 10592000360084206998994475211201116219380052694443601002000089264302302011169702211059244436000550000903965014101111498963510592444360002000009038675131611115420405105924443600020000090337001216111158724491059244436005760000900257517161111938428710592000360020700007594550181611115995450094334443600072000084456501416111158071621059217536008420000548533028121111520770910592154340089600328729430231401119786633105924443600060000090446001616111200249410899744436003070000492139025101111547924310592354360089701548683410241401115964301060584443600957000088644102408011160350601059213736000330000862865014101111943881210592444360014800009049650141611119882867))
 (.node 1 (.leaf 10592444360010400009031575171011115859600085674443600215000069964102414011156434421059200021206230000731047521141111588401210592444360017000009041575171011120114057085344443600183000058883702614111157208091059200003207770000666947521091111588237410592118360014800008875700121411115470943105924443600341000090456251510111161414341059209636006820000277343023141111542030910137444360033400008600500200901115856146105926261500623000063275002014111159942051059262536002930000873957517101111610309309604444360061700007881700121011116187325105920353600623000081394752109011158428991059200036000050000521450020101111597222208841444360087200008529330280501119229040)
 (.leaf 10592000360062700005767600161411115690083105925910670022000089405751714111193263171059248636000570000904170012141111590164409460444360057600009029525191001116088204092314443600423000075915002008011155388221059202636003660000688445022090111894351310592000207062300006924430230901115460947068144443600643000078204502214111157221180801244436004770000627143023141111906499408660444360038403685281410241411115856735105921083600060000089347001210111195620471059200036002320000319352519120111528058304601444360082500007552430230201116088303081704443600621000088014502214111158269881059217636008320000901055018091111926244910592108360002100009026625151411116049772))))))
 (.node 16 (.node 8 (.node 4 (.node 2 (.node 1 (.leaf 10533444360079900008762525191611116215502105922863600639000081585002014011159295121059200036004230000826241024101111979017410592215360047701408214475210901116222638081704443600617036181914752114111156686881059200036004860000754847521090111586505408793444360060101399001475210901119512846105921083600617000060923702609011159263271059244436002930000881550020071111577211810592444360023200008712430231611115879469051434443600617000084874102402011205408750355444436008980000871137026090111965546110592108360062103597539390250901116006462105921083600848000085773702609011161302531059200036006890000788957517140111545408610592000190066409538885450221401119278489)
 (.leaf 10592000360034100006987525190801119405814105920003600777000084624302307111156749980355444436005760000900045022100111587023006930444360046700006056270310201115843222049374443600621000067353302802011159252721059200236007090000776750020140111554803310592000360052802497685500201401115700265105925923600835000085233702609111159350851059200036007140000830631029091111590662308348444360079000003925350270801119108411105920003600627000082194302307111158692751059244436002320000900250020071111600315903554444360046700006640390250201115839558069304443600467000069793502702011160076260682044436005580000789352519020111604742510592444360062700009028500201411115895447))
 (.node 1 (.leaf 10592000360027300008385550180801115898789051254443600007045945164502202011160410070355444436006130000880939025100111937015110592335360061300007629475210201116313327091054443600865000077694502202011161660041059200036004670000730239025080111599263110592000360074200008241450221011115591091105920003600714000087814502207111194765091059244436002320000902850020071112002982003018444360052800005857430231401116060845035544443600567000084613502710011162749240653544436004670000654627031020111562524010592444360046700007523450220201115702752105921263600450000071283302808011158134441059200036007090000796741024061111509812303554444360063400006271430230201119795001)
 (.leaf 2770444360048600007190475210201116412023074374443600486000069063102902011157353560494644436009350000844735027020111598213510592297360021500008780475210201115594653096044443600517000083645501802011159505861059200036004670945749331029080111588666303554444360074200006322390250201116168548056974443600477000070893502702011158074560662544436005050000752047521020111630878910592000360046700007138310290201115534957035544443600558000086853702602011165417400355444436004860000701835027020111637649308440444360054000008216450220201115978285047204443600486000090124502202011156947290531844436006230127848741024020111631053600000444360082800007277370260201119279759)))
 (.node 2 (.node 1 (.leaf 6935444360034900007714525190201116157750047204443600837000089764502202011160907711059244436003070000802833028071111912531402983444360076600008441410240201116248666014034443600486000078323902502011159814500588644436007420000902347521020111607815104720444360071400009017450220201115470367047204443600467000072693102902011158541400472044436004670000687231029020111594417110592626360045000007417450221401115271181105924443600634000085673902507111158186940960444436007090000705433028021111590965110592444360034100008665450220711115886202044194443601012102790245002002011147899770069744436004860000883447521020111989936610592332360046700006851310290201119143804)
 (.leaf 10592000360046700007400410240201115773779052134443600400000188004752102011195313120069744436005170000901347521020111631306010592051360046700006594310290201115497143103694443600232000089764502207111158064200435244436010250000898143023020111602734105533444360066400008885450220201116397482000004443600627000086703702602011195654750000044436006890000901745022020112052767209604444360066400007947450220201120501480062814443600477000072073502702011158854401059200036005920000766045022020111610331104720444360093400009029525190201116139207047204443600486000089885002002011196782380472044436004860000903867513020111905709505697444360048600007824370260201115944242))
 (.node 1 (.leaf 1403444360046700007207350270201116106027033094443600656000049744502209011158955280459844436010480000901245022020111610396307287444360048600008640370260201115986391062814443600540000078074102402011162373760714844436008710000898143023020111623831406131444360062100009028500200201116208479014034443600467000072073502702011157528070330944436001700000735235027050111575116705221444360087200008914500200201116622510056974443600486000087454102402011160403950472044436003660000904267513020111570698707060444360062700008993450220201116273934012854443600960000083574302302011170374530000056236006210000901745022020111609817310592153360048600008780410240201115705205)
 (.leaf 1403444360046700077068310290201120657866095284443600283000060714502210111159455150563244436009010454892041024140111616655510592000360071400009001475210901119522309068154443600517000073894102402011159391840472044436004860000886367513020111555183610592073360047700006871390251411115519431000004753600790000073253702602011203009540000044436007790000901745022020111642165900238444360058500008840390250201116191613000004443600848000089814302302011159388910623344436006270000887143023090111598076410592444360017600007900625150801115776096032244443600627000085463702602011162466840166044436004860000902347521020111983865310592000081006000008940575170901119333113))))
 (.node 4 (.node 2 (.node 1 (.leaf 9227444360066900006067390250911119814498098124443600613000067963902509011161974680569744436004310000883743023020111965947109604444360046700006982310290201115974205105924443600467000068513102902011194858720869744436005670133876443023091111588343510592073360042300007395500200801119026607012324443601141000090174502202011163005460395944436004860000901347521020111622195310592444360028300005944550180801115501698105924443600192000089246001608011158150740826144436005490000752345022090111587285504720444360048611169005675130801115305016105920733600322000077954502208111153924050462244436005490000712235027020112063462606815444360048600008655350270201116265915)
 (.leaf 10592296360046700006594310290201116175219105926033600060000079726251509011153289861059244436001161345901462515140111548937809878444360028300008936650141411116078331105924443600144000082276251508011156629741059244436004670000680831029080111576000310592212360059200005883475210911115720920056784443600627000087273702602011162153500000047536000070000410945022100111539702010592523016030700007411525190911115576879105921893600144000079006251508011153690241059218936001830000794457517080111542011810592189360027300007781500200801115370583086074443600157000058644502208111189526370000056236000190000575543023020111597412402445444360048600009013475210201116854011))
 (.node 1 (.leaf 10592052360060500008656525190901115839629032344443600486000086553502702011159655510545444436004860000889643023020111649264906190444360033400007943390250201119691899105926033600247000081315751708111153928691059244436008440000794457517080111561957210592189360047700006457475210801115759182105920733600558000063923702608011160874150619044436004670000699233028020111573331210592073360061702547169370260801119482431058364443600682000086953902502011197197281059244436005920000692131029020111615910603554444360077900008831410240201115916388087464443600505000088854502208011158243671059207336005170000825747521080112010846306190444360028300007086390250901115905734)
 (.leaf 6190444360046700006981330280201119239836105922372330176000088034302309111158090791059218936007990000902662515080111555005900000444360063900007391350270201116231242068154443600467000073393302802011193716811059239936005850000785939025090111914221010592081360046700008596430230901115908263105920003600104000072633502708011187323260966944436002830000726539025080111535452310175444360019200008881525190901115979408000004443600000000045774502210011156533180355444436006130000883141024020111631570510592038360051700008892600160801115685579000004443600006000065094502202011154223860923444436008370000872841024020111642367308792444360066900009002500200201119255095)))
 (.node 2 (.node 1 (.leaf 10592024360066900005808390250901115758499096694443600322000072453902508011191674221059239836002470000718739025090111623907610592398360006900006977430230901116309006105924443600283000061434102409111158008951059203836004130000860460016080111547823310206444360054000008920410240201119302069105923663600517000069813302802011193209591059203836006050000898365014080111989639400000444360061700008448475210201120015311061144443600517000069113502702011156137581059208136007900000785743023081111516816709816444360028300007025390250901119255261105920003600192000078195251909011158257731059224536001830000871243023090111565123510592444360014400007765550180911116036674)
 (.leaf 10592100360054000008670370260901119397082105920003600215000079445751709011191906701059200013606170000706041024141111596085409096444360022100008954575171611116366618105923973600164000085955751709111162575171059201236006170000849565014090111611027910592140360086500008950650140901116030673105920214020033000078195251909111153880620820044436009250000876345022100111482858010592304360036605947000410240901115374510094854443600366000077405002009011190913841059215036001130000743847521071111581998310592057275084800009023475210901119198011068144443600807000088714302308011161805121059262636008070000897143023090111988389510592626360080700008981430230901115690934))
 (.node 1 (.leaf 10592081360000800004446370260911115417090105924443600842000090184752109111190898141059244436008480000902347521091112246973506814444360080700008981430230901115526352105923373600423000069303102909011154581801059224636003570000709937026080111582188609505444360059200009017700120711116105512095054443600549000089826751307111158910071059200036004130000787247521071111557260710592444360071400008618350270711116699657074394443600170000038764502204111161197021020644436007710000879941024040111923574410592284360055800006675410240901115030592105924443600226000079515501807111149899051059244436000320000668260016071111505220609796444360082400008584350270811114870322)
 (.leaf 10592012360035700008866550180911119325886105924443600528000090496501409111149737750867044436003660391874843023090111621559701888444360029300005321525190911115900256105924443600592000081847001207111153633961059254136007930000858233028081111517239910592444360046700008813600160911115411849105924443600072000067635751707111158297911059244436005760000805270012071111603673610592444360066900008699370261011114786179105921713600613000060294752109111195955080679344436001440000408045022071111870782106793444360062300004894390250411115812635032424443600807000088253902504111150249931059233736004500395702433028120111899162110592337360029314097358450220901116003456)))))
 (.node 8 (.node 4 (.node 2 (.node 1 (.leaf 9430444360028300006450600161611117255268105924443600442000089066501409111150594270847944436006050000557055018091111573314010592000360034100006483500200711114793253032424443600835000089864502204111152425461059200036005850000484747521161111447297410592444360051700009047625150711115230623105921713600450000088344752109111159597010854844436001640000365645022161111584984110592444360083500008986450220411115067569105920003600148000088984752109011138870681059233736003410000895555018140111430834506191444360042300007805525190911114904536105924443600164000079915251907111158133941059236436004670000820429030100111569272510592265360047729696121350270901119116363)
 (.leaf 10592444360033400008866550180711115088652105920003600334000073854302307111190291011059244436008390000882539025080111509891110592371360046700008407330281201114415413091734443600232000089906751316111158422980886344436001570000879950020091111641822710592444360018300006505575170711114985465105924443600807000088093902508011153913861059200036004670047882043023100111417617410592000360001900007741475210711115949772105924443600601000089204102407111189896121059230836007140000888343023071111942962406015444360055800006924430230401119073604105924443600334000089405751707111188781541059200036001980000735452519091111470822808194444360062100008463500200911116333284))
 (.node 1 (.leaf 10592000360070400008727370261011118621072105924443600803000089864502204111150926901059209436003340000883155018071111910653110592141360038400003680500200911114852714105924443600064000080135501807111148669811059244436005920000812670012071111609248610592444360006000007869575170711115347302105920003600366000088475501807111154105641059244436005920000905270012071111828802110592444360059200009052700120711115149894105920003600592029457373302804111144411571059244436008370000902160016041111933783610592094360033400008927550180711116167911076244443600567000086074102409011165895431059200036002830000641955018071111854295610592444360002500007993575170711115239793)
 (.leaf 10592444360062700009041575170711115094002105920003600341000089674502207111144901171059235636005580000583127031140111588588210592454360071400007010475210711116034336105924443600592000090527001207111157890510714544436004000000858847521090111547689610592000360046700006454525190711118751686105924443600592000090527001216111159387801059200036008370000903260016140111936074010592216360062329636939450221211114033360105924443600021000090385751707111158113591059200036008370000848845022080111886436506190444360078221366195310291401115950795105925993600334000085845501807111151844501059244436007420000901847521071111440540010592000360071400008778390250711114608509)))
 (.node 2 (.node 1 (.leaf 10592444360051700008010700120711115848799105924443600192000090205251907111140811061059200036005850000887641024071111584712810592000360034900009033525190711114892400097014443600585005788704752110111189562891059244436003410000668050020071111581590410592444360059200008184700120711115881006105924443600592000080297001207111162641871059244436003070000661147521071111570908110592444360027300006682525190711113546040105924443600221000090375501807111158151051059244436005920000905270012161111831325410592116360068200008840390250711119073228078464443600384087375296001607111141551051059244436000550000809057517071111419309610592444360051700008054575170711116273368)
 (.leaf 6425444360024700009033525190711116023376091154443600766000088184502209011139291281059259936007140000707547521071111343572610592444360038400006721500200711118560470105924443600623000090406251516111188172220967744436005760000890960016071111392533010592000360040000007496450220711114280344105920003600714000086283502707111143690891059259536000570000738055018071111358500909701444360061304288905410241201112981123092354443600413019169664102407111139515301059200036007140000726335027121111935615310592101360042300008781450220711115884760105924443600719019366805002012111186364071059244436007140000897747521071111615983310592444360061300006659575170711118994351))
 (.node 1 (.leaf 10512444360074200007766525190711114145936091154443600846000077144302312011132447180642544436007140000900352519071111392896510592000360082401967903250321201113143070098244443600870000082463102912011158001551059210336000000000671335027100111328783606896444360070400005459475211011117035243105920003600384000077675002007111139042500670944436006982917478050020101111628144410592000094060500006505575170211118591567049634443600719000090195002007111136361491030044436008370000896745022120111850963410592101360041300008942525190711118298846105924443600824000086953902512011126230120496344436007090000903857517071111637170908389444360071400008655350271211114709500)
 (.leaf 8590444360064305776972500201201113562257105924443600828070585663502712011128053810838944436007140000899447521121111902433609883444360085304469015600161201118417780105921013600164000080404752107111182110320267944436008250000793535027020111261923410592251360061300008476525190711112463119105922513600613000075475002007011180233780928144436003490000844141024071111578290409991444360041300004850390250711111261932099914443600366000085684102407111105681510848844436006270000548841024071111114526009497444360030700005894430230711110694422101574443600423000083553902507111168866960992344436007790000835743023071111043903309388444360020700008607410241001110998634))))
 (.node 4 (.node 2 (.node 1 (.leaf 3981444360010400006697300020501116531918039814443600605000066973000204011097035171059244436006210000669730002040111095498310592444360045000006697300021401115811168012964443600623000005703000015010874467080229044436006230000080530000150111360616800333444360062300000850450221001091515826000154443600623000004014502215011146426050046144436006230000048845022100109189574202823444360062300000256450221501090999241029924443600623000004754502215011134826720281444436006230000047945022150111348267202959444360062300000488450221501113482672029794443600623000002704502215011134826720308744436006230000048845022150111348267202290444360019800000000300001501113482672)
 (.leaf 2652444360062300000854300001501090999241030404443600623000007814502215011136597960318944436001980000000030000150111348267203189444360019800000000300001501113482672031894443600198000000003000015011134826720337944436001980000000000003150109200352503189444360019800000000300001501113482672031884443600198000000003000015011134826720318844436001980000000030000150111348267202549444360062300000505300001501092003525013504443600623000006443000015010920035250318844436001980000000030000150111348267203188444360019800000000300001501113482672031154443600198000000003000015011134826720307744436001980000000030000150111370064903131444360019800000000300001501113482672))
 (.node 1 (.leaf 3102444360048600000000300001501093504217031374443600198000000003000015011134826720318344436001980000000030000150111348267203178444360019800000000300001501113482672031024443600486000000003000015011137693750362444436001980000000000003150109450041203277444360019800000000300001501113482672031024443600486000000003000015011137942230327144436004130000000030000150111348267203248444360048600000000300001501113482672023344443600623000001653000015010949971150324944436004860000000030000150111348267203264444360048600000000300001501113482672032004443600486000000003000015011134826720320044436004860000000030000150111348267203200444360048600000000300001501113482672)
 (.leaf 3200444360048600000000300001501113482672031024443600486000000003000015011134826720310244436004860000000030000150111348267203102444360048600000000300001501113482672023094443600623000002173000015011134826720104644436008350000132145022100109797536402781444360048600000000300001501097465178031864443600486000000003000015011139940110155944436004500000051645022070111549338201559444360074200001261450220701099214288031864443600486000000003000015010979554380266144436004860000000030000150109844449103186444360048600000000300001501098444491023964443600623000000003000015010984444910206744436008700000137945022070109975002200535444360062300001540625151001114867749)))
 (.node 2 (.node 1 (.leaf 3186444360048600000000300001501098919975015594443600870000014534502207010996706930155944436010060000139645022070110062183003006444360062700001339450220701100466564015224443600623000010616001610011002907770236644436008700000132145022070110052154701643444360095800001417450220701100707493004314443600623000014946251510011142520000202944436006230000112845022100111454287303037444360048600000000300001501099647781018704443600870000014434502207011172271650236644436010010000139645022070110135824001717444360084500000867450220701100566792017174443600963000006154502207011007447130244544436008620000141745022070110077275900000626360084500001017450220701100910133)
 (.leaf 3056444360087000001547450221001114296784017314443600623000006224502210011008223320128044436000260000103957517100110141698803610444360048600000000300001501114235527023664443600934000014174502207011015946510164344436008450000145345022070110108394900000444360084800001556450221001114502951024314443600623000002603000015011133255680164344436000160000074145022070110115986401707444360085600001479450220701116287899032654443600867000014904502207011016778820267544436008700000154245022070110139331901785444360048600000137300001501100369329036394443600875000014904502210011152934830332244436008700000144345022070110253438101643444360084500000589450220701115738525))
 (.node 1 (.leaf 945444360062300000694600161001114710597036104443600486000000003000015011143504770000044436006890000366955018070111506495301643444360002600000345450220701115845867024454443600104000003954502207011017940200267544436008450000147045022070111590560101217444360087000001465450220701101976090016704443600623000012834502210011026654330160944436006230000105645022100111547085803610444360048600000000300001501114390197036104443600486000000003000015011143901970361044436004860000000030000150111439019703610444360048600000000300001501114390197036104443600486000000003000015011143901970294844436004860000000030000150110084664106340444360068900006042550180801102481586)
 (.leaf 5126444360084500001300450220701102026842017834443600592000012454502207011161003800137244436008450000146545022070110238244100666444360032200001180450220701115928748000000003600848000012614502207011021427920239844436006230000061530000100111332556803370444360048600000000300001501114430590032184443600486000000003000015011134826721059244436006890000565755018080110296290603191444360090100001453450220701103029569038904443600878000015104502207011164989571059238336008880000085045022070110292705805126444360084500001354450220701102605073000004523600832000008864502207011029074540108144436001040000111545022070110233441602090444360084900001510450220701115315241)))))))
 (.node 32 (.node 16 (.node 8 (.node 4 (.node 2 (.node 1 (.leaf 86444360048600000728500200701103052602073414443600623000014174502207011026767440266244436006230000089845022070111535702002391444360062300000720575171001114611377036104443600486000000003000015011013208080000050536009080000103045022070110271443101643444360000800000357450220701102092355051264443600837000013004502207011163311850000044436006270000098745022070110295097400000355360084500001524450220701102593707000004443600617000012816251507011025043700237644436006230000089845022070110334279801151444360062300000649450221001116022586028464443600486000000003000015011015566660337044436004860000000030000150111348267210592044360082807424837625150801102700746)
 (.leaf 2947444360084500001083450220701115395867000004443600017000002964502207011157592190478344436008450000070137026070110301619305126444360084500001321450220701103116543002384443600000000011994502207011030572310000044436008370000114945022070110314839900000452360032200001230450220701102970693000004443600003000002184502207011031699690000062636006170000040950020070110308157201304444360062300000554600161001103085345029864443600486000000003000015011017916840000049436005920000455560016080111629951900000444360081900006230625150801116053889031544443600919000051615251907011034010580164344436001570000091645022070110372993704783444360074200000831450220701103004996))
 (.node 1 (.leaf 5126444360084500000886450220701103082308051264443600845000013214502207011036501841059234336003070000118045022070111584451504735444360084500001149450220701115546292000004443600845000015014502207011034873090000057936008190000054345022070111564422900000487360083900003057450220801116209140000005024191141000013493902507011160692660094244436006230000106160016070110360347301457444360062300000726600161001102770620105924203600942000062275251908011154620000439744436009380000749052519070110348420300000444360084200001427450220701116241295000004443600803000004164502207011032920240078644436006050000050045022070111536284900238444360080300003299475210801103049853)
 (.leaf 521360114100002324390250801102785343000005213601141000006073902507011026206880355344436009580000878250020070111531610803027444360071400004418550180701104194888000004443600837000042694752108011044527450000044436003490000211845022070110396362401024444360084500000734430230701115138881033474443600845000009354102407011040374720000050736000020000090145022070111612905100000452360000300001010450220701103458343020374443600617000007306251508011038042960145744436006230000074562515100111596061300727444360062300000464600161001115826078105923703600777000053016001608011039773330583844436008720000645355018080111591023206988444360061300007764575170801104258719)))
 (.node 2 (.node 1 (.leaf 490360000300000345450220701103469998004204443600000000003954502207011035186870414244436000000000043645022070110374124200000508424001400000244450220701103885711000005273600003000003674502207011154611910000052136011410000407639025080110352440200000539360085800000738625150701103236372029714443600486000000003000015011027229920622544436008980000779155018080110452729400000444360084200008847550180801116189402000004443600664000045466251507011045910450042044436000000000040245022070110398649100000444360000000000436450220701104426308051264443600845000013443902507011163721150512644436008450000122939025070110508411800786444360087000001479450220701104722830)
 (.leaf 1500444360087000001443450220701116272056000004533600939000028436001609011036199260000049236006230000077860016070110435698010592401360062300000726600160701116045245024454443600689042756575501808011162370740244544436006890000565755018080111652339610592299360068900005794550180801104648224043974443601044000062275251908011051267100000044436007140000886367513080111542762803555444360084500004497550180701104785971000004443600686000004514502208011148719960000044436008450000035745022070110398703800420444360000000000426450220701104278124000005554400002000008574502207011151278690000045236000070000055845022070110484047500000444360047700001490450220701104836504))
 (.node 1 (.leaf 444360000000001217450220701104576709000004443600835000003516001610011044210390000062636006230000118960016070110398002803584444360048600000000300001501103183140043974443600689000054785501808011157831811059235736010100000642152519080111533036010592444360071400006299550180801115411560051264443600008000004324502207011152402980000057936000070000034545022070110439527000000444360085800002888625150901115779880043974443600617000075965251908011163312570311244436006980000761765014080111543823510592444360063900007762600160801105358600105924443600898000076725751708011056505841059244436008070000499545022080110512380900000444360000000000790450220701115418358)
 (.leaf 762444360027300000268410240701105153318000004443600807000039424502208011159839780000059436005670000156550020080111490456703554444360083500002471600160801115126735000004443601141000033273902508011159680820439744436006890000516855018010110505228110592274360062700007811625150801116933365051264443600845000012933902503011053713950151244436000320000039545022070111645842300000557360080700004308450220801105474646000005633600623000020834752108011163178360000044436008350000202045022080110543184400000588360114100003957390250801105254531007344443600858000011326251507011148482501059242936007140000762652519080111516997510592444360084200007739525190501116252800))))
 (.node 4 (.node 2 (.node 1 (.leaf 2445444360097900007684525190801105658576000004443600793000004364502203011162465850000044436007770000284747521080110607054700000444360085800002974625150901104991689013934443600623000007956001610011138504211059230736006890392535857517010110596939404196444360071400007787600160501115029872051264443600627000011314102407011056331690000053143800000000043245022070110571170200000444360063400002366475210801116431314035554443600835000023746001608011057697411059219536007820000280257517070110532182910592359360068911565358575170101105846431105924443600714000066155251905011045894211059244436008250000745357517050110750375300238444360083900008117500200701106219514)
 (.leaf 4619444360084500001321450220301115206978047884443600825000012644102403011059099570236044436008530000372445022070111640798400000626360083500003730600160801107010789000004443600858000029856251507011060332250000044936008580000081862515070110563676502181444360063900000754675130701106028083024194443600634000008236501407011050774780859344436004231295773657517050110630312510592382360071400007411525190501106008513047154443600844000087565251908011068587980323644436008450000239145022030110632651301329444360064300000776650140701107336555033924443600024000006994502210011072773110140344436006893087547855018010111498345406190444360084914228832525190501107290347))
 (.node 1 (.leaf 444360084500003764410240301106541543041034443600845000008864502203011164306701059219536001340000488962515090110796856901404444360083900002201625150701116632126035544443600689288955506251501011065892000512544436008240000759455018050110787107405125444360077700008995550180701116469689105924443600865000088044502205011069015390487644436008320000869152519080111714950703083444360061700008922650140801107021335032364443600825000054744502203011069923660000053236000040000268145022030110682479600000450360059200000518450220301116487547000004443600001000006444502207011064738440000056436008070000766045022070110812645500000444360070900005790550180101108116175)
 (.leaf 762444360113700007206390250801108350259038004443600024000007214502207011077192980382644436000240000071345022070110819232306813444360083600008853450220501107211113039824443600845000024254502203011067964030327644436006390000379145022070111607198704958444360080700007574450220701107950544059024443600020000069916501415011169441720076244436011410000722639025050110814329601404444360059200005583625150801107833184105924373600689236565595751705011150622201059244436008530000885247521050110821152304641444360082800008853450220501116633676042364443600920000088994502205011079733970524044436000000000517845022050110720478703555444360084600006820270310501117871661)))
 (.node 2 (.node 1 (.leaf 10592334360068900004088550180901107987245105923133600689000029285501807011080608610409744436000240000072145022070110853752810592422360082812257820500200501117710761105923843600828033279076251505011171520021059238436009540000784452519050110778778904916444360079300008818450220501108619030035534443600832000018624502203011077943310464644436000000000077345022030111575942600000565360062700003730600160801107972123014044443600686000070204752105011175384480000062636000240000260045022070110816815510592444360082800007893525190501116326806054024443600828134089697001205011175194270681544436008030000717445022140111756022505125444360065634756939450220501108618956)
 (.leaf 10592408360084500008836450220501108424798000005453600000000006804502203011160929210355444436000000000171445022030111604978300420444360002600004986575170701115491089105921613600828250488776001605011088901171059244436008280000866841024050110843280300000444360002600002550575170701116099409105920003600828000089574502205011168800330512544436008070000681045022050110840512805125444360070900006382450220501108527571000004443600000000002614502203011083149570319344436007040000866545022050111763122710592384360082806937682575170501108877060099144443600824101583583302805011086317350000062636000000000517845022050110882370600000444360000700000244450220701108305986))
 (.node 1 (.leaf 444360000000000115450220701108169822000005363600486000034705002001011083163000093744436011210000457135027090110863205610592161360082805047881700120501108763965056974443600742115166414502205011093898541059244436008250846822631029140110866979910592444360091100008379310291401108671182000004443600517000048274502205011176254760355544436008910000473245022080110841652903607444360115906674449330280101109027686056874443600024000049274752107011087445381059204536008250112828831029140110884590008924444360085300008479330281401109032516105924173600257000052314302305011088711580492444436007140313673945022050111766039300000444360028300004743450220701116885140)
 (.leaf 444360083700003828525190501108833454000005143600634000050714502209011177047390000047236008720000509345022090110863531510592444360006400006377575170701109140009061024443600026000046585751707011158453421059229236008530000738541024120111758834910592412360082806527658475211401109213763105924443600777048882523702614011088909500000044436008070111690945022050110909730500238444360000000004131450220501117088588002384443600157000001404502210011172796650048844436002260000032245022030111595308203873444360061700002131550180101115968255041384443600979000047074502203011173502581059206036010990000541747521090111778029009604444360080304817657500201401117737100)))))
 (.node 8 (.node 4 (.node 2 (.node 1 (.leaf 10592444360076634807147430231401108906039091374443600942000085913702614111086490550042044436004500481809845022050111728635105125444360110700002306450220301108827176007024443601004000045524502203011088170301059241536006170000538639025010111823713200000578457062700005477450220101116758604035554443600605000086144502205011098515890440844436006270000878145022140110919866810592444360077912408878575170501117801053105922063600669000083834502212011092340431059200036007040472839233028121110906756505125444360000004723478475210301109259766000004443600689000062835751707011094822480023844436006890000624857517090110926865610131444360081900008929500201211109543091)
 (.leaf 7181444360084413427669250321401109931755000005223600293029960324102405011098548710355444436000280000238145022030110907000201404444360068222388683410241201118085506056434443600766010788014502212011098420520298144436011590000543933028080111791559203995444360114100006537450220701109450945103904443600853406289885002014011093130511059229236008071329881550020120111752280410592161360069823648614450221201109637966056974443600709236472354502212011175075061059200036007192768847735027101111616175709721444360083500008966550181011109578266000004513600782166261613702612111093611720000045936000550000258345022050111747881800000444360000000004078450220501108804470))
 (.node 1 (.leaf 6023444360062300008683410240501109731795051264443601159000058343302805011090446820244544436008700000585045022080111736437010592280360085616538967450221201109759241096044443600807044589135251912011098460910960444436008250929885247521120111617362009392444360079000008820430231011117517643105920001260689215177532503212011095406610000052536000000000243245022051111749068002445444360099300003574450220501117388515105924443601159000058123302801011104720240140444436008390000663552519080110988066000000444360000600007844700120901109705023105920863600689318789154752112011163369611059222036007710000891057517120111752333710592091360084236598488450221201117622916)
 (.leaf 5696444360066926488049290301201109619919051254443600016000046624502205011179578670508744436008371421330831029100111733475405125444360027300005300450220501117636121030964443601109028765604502214011097886020523144436008350000837737026121111624386210592098360062310488924600161201109880507105923473600790117777375501812011172975391059219836007772436773755018140111786062310592161360074222618899450221201110206999065994443600019129645434502210111094226110508744436001921894285541024100110941876500000586360040000003243575170101117168544105920002830689000080747001201011101103050382844436011500000779650020080111582922510592444360068900006183625150801110190967)))
 (.node 2 (.node 1 (.leaf 10592375360002100005882700120101116679009105684443600540334490396501414011102273691059218336008032795743847521120111768269210592198360077737098573450221201109884756105920003600689380287834302312011104384871059213436007790749857345022101111717170210592167360068632578333350271011109686156105920003600845188387834302310111173248290000058136000000000241645022051110933952604397444360010009042215430230511117266668000004443600623000036564502201111160382340960444436007710000868341024120111015400605125444360051700008032650140101110575797000004443600888000090124502201011099079271059213636006860000883252519120111620476405697444360010400001790450220501115955815)
 (.leaf 5537444360029304324126450221011109437224105923293600366074347354502210011097444860121844436000000000332252519050111004799504121444360083500008899450221011110304438043974443600664000058294302305011110687430479744436008750000778843023010111735831110592327360068900006257625150101117722914105920003600779259086144502212011097965460000044436001921145200041024051110988854101403444360063400006394525190501116408673094404443600777000087995002010111182069040883744436007930000607145022101110993148205488444360002800004366450221011109753050066674443600832000073124502210111107293211059214236006890255838345022120111055060410592444360074230085340550180501117846500))
 (.node 1 (.leaf 4623444360000900002407450221011109977095050874443600247000046214102410111172960790512544436008530099859047521101111071709810592445360083505628836450221011110247399038054443600686056264175751705011104303760023844436006890992652862515050111007085510592182360078235126939450221201110465972105920003600689411369394502212011100185471013544436006690000901170012101111599058209154444360063400008953600161011110832273093624443600686000088014502210111157966410914844436008350000718739025101111003986405691444360018600004205450221011110341404058004443600022000058544502210111102210910619044436008490000812041024120111591002400000444360092902458853450221401110330859)
 (.leaf 444360098200973545500200101117925858105924403600799110089154752112011110035611059241936007420986817445022140111606969210592328360077718888597390251201117965517105920003600714374458644502212011177493030944044436004500000883645022101111073418600000444360098200003437500200101117408004051254443600656000074115251905011110528891059244436008240547880145022120111057936910592444360079035447838450220501116127030098404443600639000086403702610111162025860000058036002830000713447521101111078353210592444360078200008098450221001111221240105924443600689000051406251505011162559080972944436007421774888545022120111077002610247444360084904068820430231011116105004))))
 (.node 4 (.node 2 (.node 1 (.leaf 9907444360062100009009525191011116046230099074443600592000088325251910111108261170569144436005920000683152519101111577064005488444360079000006382450221011115705659053234443600835000056614502210111102133910791044436008250000883645022101111606314300000444360082825508020450221201115813708080594443600357000074444302310111110586690619044436008530000870939025121111096174410592000360080700938967525191201111538243105924443600656139576855002014011161950470355444436006890537723545022140111150057410592444360079903988241450221401111102110061744443600790299585964302312011111087881045544436006170000798625032101111120760209148444360058500008927550181011117600886)
 (.leaf 7224444360023200008763450221011118153628105920003600803093784884502210011175450831059200036008240000852845022101111570373710592444360083234045276475211201116071797088774443600771000088237001216111112511440512544436005760000432343023050111581273705125444360077902268633390251201111620879000004443600937000027375002001011104820361059230036006690000603052519100111068936510592444360068909328584350271201111164194096044443600779052986005002004011115871200000044436008032558894445022120111117002310592063360077936828836450221201111469375097734443600790066987644302310111116081831059244436008030000843931029161111084577509148444360023200008885450221011118055887))
 (.node 1 (.leaf 10592000360083700908944450221201116067830105922893600686254975504502212011117407661059244436007090224824145022120111575878809773444360074200009014500201011111806811088774443600450000089875501810111181731170946244436003070000880145022161111148246706190444360077105268477350271011117910095105920000510837000077073302810011177563681059234136006980920856652519120111126116509846444360061700008976550181011111494169086204443600777000089056751310111159582621059227136007820380878041024101111191838510592000057083700007902310291001111876912105924443600689000067625501810011154674460693944436007710790901462515100111822357008059444360029306488371575171011110905895)
 (.leaf 4945444360027330364816430231401117781602105926133600793000054294752110111116179941059240636006980644673745022140111120660710592271360083600008942525191011111869401105923383600828123669394502210111116622721059200036006210364717445022101111798813510592000360062702198934700121001111867259091484443600024336256004502210011176040820960444436006894075703360016040111635753908064444360068907647978370261611111591484096524443600134000055644502216111156052821059236036008360501843845022121111194428410592444360023200008392310291611112204453087934443600549000026154502201011181123330670844436007931947721937026100111165214410592000075083507508872450221201117873026)))
 (.node 2 (.node 1 (.leaf 10592193360070416607297450221201118261551105920473600714000080494102412111128186930826744436007090000485039025120111582084710592352360066925617753390251211117896734028154443600257008341504502210111115550421059224436001130000426947521101111233025006844444360000000003304450220501118799167105920723600617000073924502210111181669711059234836007423628749545022120111855472510592444360085827076426450221401116161869080644443600013000042914502210111180740570756644436002320213793445022101111816947910592088360068900008891625151001115910076105920003600835000088534502212011119355520512544436008393790664145022140111637151606813444360074200006144450221211115956988)
 (.leaf 8064444360079900818585390251611111685522105923723600257000058654502210111120153831059217036006232219843845022090111599997410592340360068217787495450221401118322271105921573600686000067125251909011122066721059200036007712108852845022071111827429708064444360077100009023700121611112359368080644443600771000081307001216111114824450845544436002470000876345022161111599492408083444360034100006519430230711115876653105921583600793007969394502212111182027651059240236005170000328837026100111560586910592352360036617717753390251011117919013080644443600232000080252703116111129685761059217835107820000696645022101111832189310592000360083509668763450221001112082031))
 (.node 1 (.leaf 10592444360085808476542450220401113120218099144443600634000048815251910111116585691059238736005280000346639025100111215357910592444360077100009028700121611118564147000005564260576020922883902510011176977460806444436006890000899867513161111573739110592626360051702088852475211011112335794105923193600634020869974502214011189857030000049936000040000217845022101111177290308064444360077100008823700121611118119708000004443600828202888374302312011125689271059211929007900207598047521081111331714509048444360062100008174450220711112610000080644443600000000018504502216111124996860806444436001760000824145022161111562503806894444360023200008899450221611116149159)
 (.leaf 10592279360058500006298450220711112368803105920000120845020688014502210011126067990905444436007792949896745022050111569331306983444360024700003087430231011112311778105921063600069000089945751716111183583830042044436006010000724737026071111833847508064444360000000001750450221611118069487063724443600656000083793102916111123419030661144436000000000399945022100111560437110592317360076607107964450221001115861450105924443600682414669974502214011139566871059200036006820204586545022071111827835908787444360002200005054430231611115849872103774443600686020482276251507111164374380681444436006431040793445022121111246302200000444360084609318926430231211116019023))))))
 (.node 16 (.node 8 (.node 4 (.node 2 (.node 1 (.leaf 10592000026025700008438450220711118147090074694443600940113190124502205011165707831059200036002214049838345022071111580685510592612360084500008763450221011118334386105924443600898102323103302812011164357171059244436008194016654245022040111867277609213444360080300007753390251211116066977068144443600000000034684502210111156774891059244436005050000858847521161111572654108775444360061300008504350271611115905480087874443600592000084913502716111129711880000062648701440000317347521071111551643500000444360025700001798475211611118052539068144443600824000031994502210111124413051059222636008350694752345022100111312218510592000360079322807358450221001113076271)
 (.leaf 10377444360002500004109450220711112764273068144443600341080876134502212011129796730000044436008483307762947521120111403346910592626360040000007570500201011115856694105924443600875019885043502716111129551271059200036002320000876345022161111398134610492444360063918908504350271211116137890066114443600226000049044502210011131935141059200036002210317502950020071111329585510592377055079914547660450221011113588370076744443600871031790014752105011132381670569744436008780000888447521120111588592510592423360068903157545450220801116658462104924443600176000060374302307111139311020980944436004860000620350020071111301235010592111360022611928416430231201119489393))
 (.node 1 (.leaf 10592111360079316808626475211201113981052000004443600000000030514502216111181376510426944436001640315387645022050111340313009604444360079919842310430230501119014446105924443600232000088014502216111183606020569744436004770000775339025071111658295609171444360002700005756430231611115854063098094443600334000083964752116111134653700381744436000000000425745022100111862843101199444360080303145701370260501116705264056974443600870054586974102412011164722771059247405008350993740143023101111348582410492444360023200008781450221611113612153098094443600022000078654752116111184758391059211136000000000189645022160111291059105105444360000000008500450221011115808796)
 (.leaf 10592444360055807788956525191201116092111066934443600929237190426001605011168145001059244436001000000900645022161111505842210592444360007200009026625151611116271506105924443600019000090117001216111192308661059244436002930000860050020161111362063510592444360057600008781450221611115756151026154443600000000030514502210011135706220394344436000000192364145022100111603380110592064360069805408781450220801119170178105924443600020000090377001216111167057600991944436002150000778641024161111359263010592111360046717818761390251211114020371011994443600060000033044502205011129138140837244436008771258900645022080111686790110592444360002800008266575171611119068454)))
 (.node 2 (.node 1 (.leaf 10592444360002000009037700121611118730558105924443600232000087634502216111145458461049244436002930000880047521161111589788909817444360071400008223290301611116337294011994443600837000082624102412011156792620914944436003570000673745022161111382547109793444360017600007660450221611116048183101284443600157000081575251916111146682810467944436000000000215745022100111538540201199444360083700008262410241201116831683105923683600585000079955251907111133717081059244436001980000899457517161111693514410592444360038400008846410241211119215534046794443600423000042484502210011137627640790644436006010000457745022071111607886110592444360018600009003525191611116074702)
 (.leaf 10592444360022600008527625151611114760779104924443600170000085276251516111190379311059244436000190000897362515071111509383210429444360087000008502310290801115573322105924443600019000090417001216111149447770886444436007660000776335027161111571014710592000360023200008977475211611115725569105922183600634268789674502212111191068661059221836007420303898645022121111948226810592444360087037548464310291211116467832104314443600144000068885501816111147855561041344436000280000867155018161111869764010592218360082400008993450221201116495322042694443600766030166533502705011165264671059244436006170000699745022161111460944610330444360028300008818450221611118860970))
 (.node 1 (.leaf 10330444360002400008204700121611113974460105924443600183000090035251916111160450861005944436004130000889750020161111555550002216444360068200004481310290501116004529024454443600714000070953102912011158533331059244436002930000895750020161111618400510592444360001900007831700121611115984671104314443600019000090377001216111157595461059244436000600000856652519161111537397810592444360071911358956525191611115709240105922183600825203589864502212011197910590426944436008031459782631029120111661585010592000360086204128447350271011114661880105924443600366000090004502216111163904991059244436003660000779545022161111497290110431444360002100009033700121611114565366)
 (.leaf 10592444360007200009032600161611116344302105774443600164185776215751716111148985191059221836001980000548841024121111610899310592218360081929788994475211211119468544105922183600793052290074752112011144329570579844436008240000504731029120111533179810592444360032213759002500201211116393940092054443600656230389314502207111147632471059244436004310000880047521161111463920710592444360005500009014625151611115817483105924443600027000078444502216111160715131059244436003410000833447521161111477965609191444360002200004847475211611114469146100264443600000000074964502216111157609961059221836006820052650655018121111529145310592218360081900008986450221201114942258))))
 (.node 4 (.node 2 (.node 1 (.leaf 5697444360070400004780410240201116309451000005593600742000058414102402011194356671059244436000280050898560016121111519105410592218360055800007743550181201114817166042244443600664000053343102908011154432591059244436000000000669847521161111923313210592444360023200008924600161611114900591105924443600226000089076251516111160464221059244436000190000894870012161111958938410231444360093523748836450221611115882476084824443600867073189864502212011199219210422444436007040049678635027080111637371310592444360036600006585475211611115539057105924443600100000084826251516111159580001059244436001570000858847521161111582559110592444360000000006612550181611114132130)
 (.leaf 10592444360022100007969450221611119396483105924443600198000090006251516111163307471059244436000640000903867513161111617405510592444360010400009034550181611115476777105921283600790000062252703112011148645840496144436006130829482237026080111874082210592425360035700007403370260801119267940097254443600232000089646001616111160399321059244436000600000896752519161111532701709401444360087001708780410241201115941648105924443600019000090527001216111160042361059244436003660000902347521161111524249310592000360021500007968600161611115424186105924443600862400485543302812011160399360537644436006820000346441024020111899165710592444360028300009017450220711115437312))
 (.node 1 (.leaf 10592444360040000009049650141611116128893101234443600938000087644302316111151452291059202736003660285726357517120111601516710592444360000000006508450221611118915938105924443600341000090215501816111161367841059244436004000000901245022161111577671610592444360019800006257625151611115006221105920303600779000080732903012111147402961059211736004230000690557517080111490309809914444360098206106086550180811119434736105924443600283000077954502216111153128060274544436008700281868341024120111618325110592444360001900009052700121611116075007101664443600528000085187001216111162864021059213236008700000663125032120111612514810592444360019200009038575171611116245331)
 (.leaf 10592444360002000009051675131611116406719105924443600349000089934502216111162813031059205039207140905533331029121111888641410592444360010000008982675131611115828198105924443600357000090234752116111159389321059244436000190000905170012161111539683810592444360023200009042600161611116314835105924443600771000090377001216111153788221058244436002320000885150020161111617607906226444360059200006790410240801115717718105924443600366000090174502216111159985521059244436003070000864267513161111420764410592181358047700008931450221401115871421102194443600605000088544302314011197436971059262636002320000896745022161111607108810592444360001900009051700121611116016766)))
 (.node 2 (.node 1 (.leaf 9027444360068200004662450221611119026632073794443600839124387114102414011159834711059244436000080000904460016161111979785110592444360000600009044600161611119786198105924443600015000090496501416111158680491059244436000050000883155018161111578649510592444360082813104859290301211115835854105924443600186000090305501816111192812511059244436000190000905270012161111610418510592000360058502726997450221401119505048105924443600014000080346251510111157674051059244436006980000904365014161111955831810592000360002000007951550181611115672944105920003600856000051283102912111151827321059200036007090594733250020140111963517210592444360002100009047700121011115933344)
 (.leaf 10592444360001900009039650141611119613026105924443600019000090447001216111158837980943344436001040000857262515161111565139710592175360087002705201290301211115221346089974443600698106280283302810111161561491059235436008960980880145022140111594070810592444360006000009052700121611116482741105924443600060000090496501416111196115130856744436006861765746943023140111581784810592137360070400008789650141011119239014085344443600623129773444102414111152615611059200036007420000553043023090111573527500000626360017000006578625151411115526588105921183600226000089216751314111153649971059244436006170000901245022141111588389810592096360059200004257450220901115972576))
 (.node 1 (.leaf 10137444360041300008614450221411115452264105920353620664000074954502209011155692081059248636000240148903055018141111554120810592625360081900008471370261011115796477105920263600528000070285002014111189052960681444436008980000699745022141111578864710592626360002600006987525191011115785074088414443600846026187093902514011157469970923144436004860000870852519080111591452910592000161055800006390575171411115542791080124443600643014557883502714111157507820866044436006820777591539025121111938426110592108360006000009047700121411116277356105920003600413000034663902512011155995320817044436003490000851143023141111594056110592108360006000009027600161411119584633)
 (.leaf 10592000360003300005000390250711119508141105922863600467000082135002014011155487471059217636008460000898755018091111593675508170444360066400008476525191411115573725087934443600384014088314102414111159682031059221536005170000832952519090111594992410592592360071400008670370260901116256410105924443600232000085484302316111157351350514344436006980000828233028140111681761803554444360086200008727370260901116089414105920003600621000076874502208011157314301059259236007990000579937026141111643157810592444360023200008833500200711115684286105920001650656000078425501808111160997131059259236008700000846135027091111612468210592592360087000008461350271011119403590)))))
 (.node 8 (.node 4 (.node 2 (.node 1 (.leaf 10592000360071400008424310290911116168730035544443600540000090004502210011158573640355444436004670000730345022020111920558906930444360046700005986250320201115906795049374443600656000069623302802011157601161059200036007790000776750020140111520213210592444360060500009050675131401115654714105920003600709000086144502207111157115301059200236006820000779252519020111542083610592000360062700007684525191401115627975083484443600779000059403502708011157254331059200036006890000831745022071111934758909604444360002600004816430230201115822413035544443600592000090064502210011194051441059200036000480000834560016080111935588610592000360076600007496450220711115730973)
 (.leaf 3018444360034100005732390251401116123093061044443600664000070063302802011163455401059233536005400000781162515020111624215310592000148046700007769450220201115619897035544443600567000085163502702011163282130277044436005170000857345022020111614675707437444360021500007845500200201119801047091054443600825111189135251902011158594501059244436004670458752345022020111939228710592000360076600008241450220611115341190105920003600341000085734502207111159229901059200036004670000707631029080111606052303554444360074200006948410240201119479263056974443600517000078894502209011157281100662544436006430000903857517020111620558810592297360046700007495390250201115568480))
 (.node 1 (.leaf 3554444360055800008584350270201116475712035544443600486000069513502702011161984680844044436005920000760245022020111601750605318444360023200008977525190201115940640047204443600862000089934502202011158830510472044436006890000901745022020111595702802983444360112211908986450220201117261129000004443600842000073673702602011159011381059244436003840000879941024101111574999301403444360044200007344410240201115833933047204443600828000090064502202011157192830472044436004670000728931029020111592037104720444360046700007324310290201119691166105924443600613000086364102407111193122680960444436007770555627143023140111608398310592444360040000008712430231011115896200)
 (.leaf 10592000360046700007385410240201116186383006974443600486000090014752102011158750340069744436004860000836547521020111667976010592332360046700006916330280201115853809047204443600558000089944752102011154890700435244436009340000865535027020111623252305213444360068200007490525190201116252594055334443600972000089874752102011163196891059205140604670000650231029020111572763410369444360048600008883430230711115943132000004443600617000088403902502011158440620000044436007140000898143023020112055105806281444360048600007522370260201115869381061314443600955000087443702602011159504720140344436004670000766237026020111600623203309444360062700007417450220901115949079)))
 (.node 2 (.node 1 (.leaf 4598444360108500008981430230201116145036071484443600828000089814302302011160861970569744436006130000891645022020111594282705221444360093000008679390250201116615233012854443600777000080804302302011167885290979444436004860000901847521020111608311301403444360046700007522370260201116232731056324443600984024089814302302011164933271059200011907190000898747521090111585047509528444360028300007344410240711116175926000005623600601000090234752102011199848300623344436008280000900645022090111573684104720444360048600008949675130201118968389002384443600664000089814302302011163415650166044436004860000902347521020111629697106308444360054000007918475210201115984367)
 (.leaf 10592073360033400007400410240801115631658032244443600709000082953902502011163407881059200036001480458833147521090111588345609227444360059201317839600160911116147066056974443600486000089874752102011158981700960444436004670000690631029020111585214808697444360044200118966550180911115961185105920733600334000061944752108111156795660981244436007790000703043023140111610104010592444360030700006613550180801115516495105924443600257000088475501814011192554030000044436004860000902347521020111625668704720444360054004608977525190801115250014082614443600477000088344752114111157261981059229636004770000665533028020111940288910592444360027300008611525190801115504186))
 (.node 1 (.leaf 10592444360046700008605390251401119378648105920733600215000075474102408111154176880000047536000180000440845022100111906781606815444360048600008655350270201119972415105920803600273000078295501809011154172031059260336002730136817555018090111558155610592189360014400007900625150801115316271105921893600221000078055251908011152892251059218936001920000783055018080111541768810592549360060500005498475210911115348183056784443600576000088403902502011160291700462244436005490000859535027020112072015600000562360040000005976370260201115971007024454443600486000090134752102011214128440323444436004860000865535027020111611938906190444360047700008193410240201119523842)
 (.leaf 10592603360021500008273575170911115404389105924443600283000074146001608011189266141059218936004670000551031029080111566058508607444360022100008763450220901115452691054544443600486000089154752102011168793550619044436004770000710635027020111589145110592604360079300007420410240801119394946040244443600621000088204302302011164503431059244436006430000699331029020111599870906190444360016400007520475210201119384506087464443600384000082085002008011193451591059218936004670000830362515080111491920206190444360046700006911350270901115938567105920003600643000082144752102011152392331059207336005580000833147521080111962246600000444360040000007432390250201116392741))))
 (.node 4 (.node 2 (.node 1 (.leaf 3554444360066400008831410240201116244733096694443600283000072453902509011157034540000044436004000000688539025020111537241108792444360063400008986450220201119208982105920813600682000086204102409111159855611059200036001640000751339025140111895672909669444360029300006925390250901115456942092344443600799000088144102402011161647321059239836000550000760443023090111607289010592398360029300007413390250901119553874105920243600567000076874502214011157337961059203836004230000853255018080111573880910206444360060100008864410240201116164268105923663600549000072633502709011158336141059203836007900000896362515090111957963503554444360070900008890410240201116707258)
 (.leaf 9816444360028300005679390250901115505156105920001930170000078175501809011155286520611444436008790000786343023020111540434510592038360062300008771625150811116028101105920813600540000075644752108111189821701059224536005400000862835027090111608732310592100360054000007937370260901119284946105924443600100000080146001609111166981411059200036001920000805860016090111595268709485444360044200008913525190901115221774105921502430048000073075501807111193146881059244436000150000784255018091111938818610592444360079300009028500200901119624444082004443600540000088014502210111157554381059230436004000000644539025090111537447210592397360028300008851500200911116041514))
 (.node 1 (.leaf 10592012360064300008537650140911116038871105921403600832000089545751709011157132741059244436008250000901745022091111605798406814444360080700008971430230201119242350105926262530807000089814302302011194982351059208136002930000474445022091111583349510592444360077900008502310290911120098228105922463600467000067353302809011190415711059244436007710000858233028071111735135410206444360078200008727370260401119149775068144443600807000089814302309011194382281059233736004671728846135027090111580020510592000360034900008987475210711115514318095054443600567000089096001607111153090020743944436006170000534343023041111520352910541444360055808108650410241401119510212)
 (.leaf 10592012360033400008831550180911119157983105924443600164000079286251507111159299841059244436000640000810860016071111477272309796444360082800008981430230811115459661105924443600592000088534502212111165627261059244436005920000905270012071111576974310592444360002100007993575170711114987093105924443600540000081847001207111189380471059233736000330000693945022090111468880710592444360046700008953600160911119271029105924443600714000086043502710111190527470324244436007930000872737026041111489015410592000113055800008956525190711119009760105921713600634000075985002009111154534350679344436003070000499741024041111448842603242444360083500008976450220411115180682)))
 (.node 2 (.node 1 (.leaf 10592000360022100004530625151611114788992084794443600273000079674102409111150911231059244436000480000903857517071111895451010592444360020700007990500200711114715788105924443600824000089264302304111150875181059233736002470285900062515140111875239110592265360042305076976390250901115250304061914443600283000076506001609111153642441059200036006010000607441024071111510614910592444360033400008955550180911115071826105923713600467028883583302814011141711211059200036004670000771747521071111483169310592444360023200006555650140711115327318105923083600423000076304502208111199176590923544436005850000737939025041111932965910592444360080700008825390250801115330568)
 (.leaf 10592000360046700478853450221001114381936105924443600334000088945501809111158460360886344436001570000886950020091111606883110592000360018300006039575170911115777098105924443600592000080747001207111146052831059244436006860000892041024071111589283810592444360068900008890410240411119205977105921412200656000048015251909111155677881059244436000320000799357517071111464278510592444360018300007765550180711116331346105920003600576000088644102407111157453671059209436003340000886655018071111525673710592000360069800007872525190711114107798105920003600585000070863902504111188671971059200000106390000881550020071111385316510592444360038400007928625150711119511595))
 (.node 1 (.leaf 10592444360059200009052700120711115168881105924443600837000090275751704111152680971059235636006431035667529030140111615717910592094360033400008879550180711116104449076244443600247073687625251909011168702541059244436005920000905270012161111497309010592427360071400006755475210711116064428105924443600592000090527001207111158744471059221636006641302524955018121111385302710592000360036600006533525190711118587053105924443600601000090516751316111160176171059200036008370300899345022090111869699106190444360082403006746310291401116241131105925993600341000087395751707111148635551059244436000210000803457517071111864295410592444360071900009023475210711114530369)
 (.leaf 10592000360068900008883430230711114388899105920003600836000086354302310011161480021059244436004310000900645022071111858647610592444360059200007986700120711115727928105920003600704000088403902507111158601460970144436005920000850435027101111397613510592444360023200006586500200711115685903105924443600431000066575002007111185197931059244436005490000814865014071111918127010592444360019200008032650140711116284865078464443600576000054506001607111159864771059244436002730000642350020071111371646910592444360051700007990500200711115854751105924443600221000090375501807111160556631059244436006690000902450020161111591440710592116175063400008840390250711116109571))))))))
 (.node 64 (.node 32 (.node 16 (.node 8 (.node 4 (.node 2 (.node 1 (.leaf 9115444360077940418801450220201115843676105925993600643000072255251907111155561301059244436006270000902757517071111947528106425444360045000009023475210711116176464096774443600576000084773502707111161746411059200036003840000749645022071111869212910592444360027300006700500200711113400693105921013600232000086046001607111186010081059200036004000191761345022071111367578710592000360071400007311350270711116590475105124443600742000086005002007111161537621059210136005920000835931029071111398169510592444360069800006586500201211118598982064254443600771000090234752107111144642781059200036008240678790325032120111308586610592103360000700006497370261001118855450)
 (.leaf 9824444360085806848507330281201113588118105920003600486000075985002007111141006610496344436007140000901450020071111653207406443444360061700698974600160211115809214049634443600689000090305501807111166071361030044436008370322896745022120111318600510592444360077904438466330281201115740317085904443600689000076855002012111134132611059259536005170000896745022071111818242209883444360098003248451330281201112658902083894443600714113978724752112111190847060267944436008423116844141024020111575753210592101360018300008555500200711112550425105922513600567000086415002007111120707080999144436003410000487241024071111129076909991444360033400007885410240711115726865))
 (.node 1 (.leaf 8488444360034900005281410240711111319360094974443600186000056894302307111182958140992344436006130000856841024071111033193309388444360002600008818450221011117626438000004443600961000051413000208011045640520398144436005850000669730002050110929448901296444360062300000671300001501087446708003334443600623000008674502210010915982970299244436006230000061745022150111332556802814444360062300000348450221501113325568029594443600623000004064502215011133255680297944436006230000072445022150111332556803087444360062300000505450221501113325568022904443600623000006173000015011134826720046144436006230000061445022100109229304003040444360062300001017450221501113325568)
 (.leaf 2823444360062300000418450221501090999241031894443600623000005023000015011134826720318944436006230000009730000150111348267203189444360019800000099300001501113482672026524443600623000006223000015010909992410318944436001980000000030000150111348267203188444360019800000000300001501113482672031884443600198000000003000015011134826720337944436001980000000000003150109200352503188444360019800000000300001501113482672031884443600198000000003000015011134826720311544436001980000000030000150111348267203077444360019800000000300001501113482672025494443600623000008453000015011136797190135044436006230000068030000150111332556803131444360019800000000300001501113482672)))
 (.node 2 (.node 1 (.leaf 3137444360019800000000300001501113482672031834443600198000000003000015011134826720317844436001980000000030000150111348267203102444360048600000000300001501113745488031024443600486000000003000015010935042170327744436001980000000030000150111348267203102444360048600000000300001501113769375036244443600198000000004502215010945004120327144436001980000000030000150111348267203248444360019800000000300001501113482672032494443600486000000003000015011134826720326444436004860000000030000150111348267203200444360048600000000300001501113482672032004443600486000000003000015011134826720320044436004860000000030000150111348267203200444360048600000000300001501113482672)
 (.leaf 3102444360048600000000300001501113482672031024443600486000000003000015010949971150310244436004860000000030000150111382002102334444360062300000046300001501113820021023094443600623000004113000015010954928370104644436008350000133945022100109813755101559444360087000001379450220701098725139027814443600486000000003000015010974651780155944436008700000132145022070109919392703186444360048600000000300001501114026079031864443600486000000003000015010979554380266144436004860000000030000150109844449103186444360048600000000300001501098444491023964443600623000000003000015010984444910206744436008700000137945022070109976693603186444360048600000000300001501098919975))
 (.node 1 (.leaf 1559444360087000001427450220701099661018030064443600656000014174502207011000429470152244436006230000111367513100111540681602366444360087000001379450220701100852776016434443600973000014354502207011000510610303744436004860000000030000150109964778102366444360098900001396450220701101654583017174443600845000008314502207011008060650171744436010130000056745022070111535534002445444360085300001490450220701100649394000006263600846000009924502207011011230240173144436006230000061545022100110075687201280444360002600000922575171001115190603023664443600982000014354502207011015008480164344436008450000145345022070110112633601707444360087000001524450220701101106750)
 (.leaf 3610444360048600000000300001501114273125016434443600845000003674502207011017260020164344436004230000083145022070110098660803265444360087000001479450220701115864317026754443600870000015284502207011011174170178544436004860000017230000150111332556800000444360068900003863550180701101746892033224443600870000014654502207011026584400164344436005280000034545022070110137178702675444360084600001479450220701101551802024454443600349000004024502207011018413260178344436008450000143545022070111616097201217444360087000001465450220701102162910006664443600793000009784502207011146847930167044436006230000132145022100111615054103610444360048600000000300001501100846641))))
 (.node 4 (.node 2 (.node 1 (.leaf 2948444360048600000000300001501100846641063404443600689000057625501808011027724510512644436008450000132145022070111610528601372444360084500001501450220701102694680000000003600848000013214502207011021528140266244436006230000091645022070110207630603610444360048600000000300001501101084126065014443600689000053405501808011028470580319144436008900000145345022070111514014310592383360094000001025450220701116405511051264443600709000013964502208011030876770000045236008450000124537026070110274536901081444360043100001115450220701102317423000864443600585000007605002007011027775460734144436006230000141745022070110299509701151444360062300001056450221001115213739)
 (.leaf 3610444360048600000000300001501101320808033704443600486000000003000015011144716380321844436004860000000030000150111348267203890444360087100001510450220701116319879000005054330879000010254502207011030557830000044436000140000021845022070110268280601643444360000500000345450220701115762612000004443600845000011154502207011027925790000035536008450000150145022070110338012100000444360066400001516600160701101786172028464443600486000000543000015011015566661059204436008190000555762515080111595405804783444360084500000844390250701102834040051264443600845000014274502207011032909070023844436000000000118045022070111601153804735444360059200001180450220701103042730))
 (.node 1 (.leaf 444360084500001339450220701103143356000004523600423000011804502207011029891510000044436000000000024445022070110306144700000626360063900001329475210701103339011013044443600623000005396001610011032667320298644436004860000000030000150110179168403370444360048600000000300001501114555631031544443601000000049025002007011032660840164344436008450000091645022070111564435204783444360083700000774450220701103056929051264443600845000009164502207011159528870512644436008450000135445022070110380781200000444360084500001501450220701103457514027364443600623000010976001607011157054470000049436007660000553457517080111631123900000444360079300005987600160801115154164)
 (.leaf 4397444360077100007563600160701103626023000005073600001000009874502207011035457640000044436006560000040245022070110337336900000487360080700003675450220801103674686002384443600790000033124752108011030518430000052136011410000420039025090110295712300000521360114100000607390250701102547590014574443600623000007786001610011139559961059242036010290000592352519080110390154803027444360060100004495575170701116396788000004443600824000042955002008011169096580000044436004310000286945022070110375579203347444360084500000942430230701103850870000004523600003000012174502207011037033680000044436006270000139645022070110402975900786444360087000000622450220701103883938)))
 (.node 2 (.node 1 (.leaf 2037444360061700000828625150701104050032105923703600689000068155501808011039086060000049036000060000034545022070111584047900420444360000000000395450220701114999789041424443600000000004264502207011148819950181544436008450000062039025070110383231500000579360000800000244450220701103958609000005213601141000026883902509011138698000000053936008580000073862515070110330029002971444360048600000000300001501102722992062254443600689019578715501808011152113120583844436008240000639155018080110390533400000444360083900004548575170701114831509004204443600000000003954502207011040352550000044436000000000077445022070111620243405126444360084400001272390250701116743022)
 (.leaf 527442013400000341410240701115386919007864443600621000005574502207011164011780000045336011360000329239025090111568214500000492360062300001173600160701104309160105922993600689000057945501808011047435561059235736009960000642152519080110491485904397444360093600006261550180801105167537000004443600842000044765501807011162210480000044436005670000034545022070110384291700420444360000000000395450220801104240355051264443600845000014274502207011049212130000044436007420000145345022070111579256400000444360000700001076450220701104663163015004443600870019013964502207011152620960000044436008350000041960016070110459647100000626360062300001184600160701103995981))
 (.node 1 (.leaf 10592401360062300000756600160701115961470035844443600486000000003000015011031831400244544436006890000547855018080110466485602445444360068904216999550180801115725733043974443600558000077115751708011166858460042044436007140000890567513080111658130400000452360000000001076450220701104590298000005793600000000003224502207011148618940000059447006340000225547521080110474726903554444360083500002840600160801104953858043974443600689000069995501808011053395471059235836007090000770960016080110586818610592444360061700007787600160801105078432105924443600898000071075751708011050233001059244436008070000508445022080111639842905126444360000100000303450220701104984818)
 (.leaf 762444360022100000297410240701105047203015124443600517000004164502207011049356100000044436010340000283250020090110444349400734444360084200001172625150701116159816043974443600689083852735751701011163109571059244436006640000773755018050111641280400000444360062700000416450220801105126064051264443600845000012484102403011054729160000044436008070000208645022080111638731300000557360071400004030450220801116156987000004443600828000021894502208011152263700000058849509230000324357517080110502744702445444360098706197626525190801116567373000005633600689000088364502208011154251170000044436004310000408250020080111642117100000444360085800002926625150901104723516)))))
 (.node 8 (.node 4 (.node 2 (.node 1 (.leaf 10592307360068903925119600160501106066117105924293600714000076265251908011150406200467744436008450000130045022070110591580105126444360083600001179390250701106147687000004443600003000005184502207011162526930236044436004770000377145022070111537361300000444360083500002374600160801105636119105921953600793000029636001609011051659581059235936006891721521060016010111533171710592444360071400006722525190501115147081048594443600819000076525751705011072433310023844436008420000786150020070111673572404788444360081900001354450220301116396549000004443600221000020765251908011062640020000062650108350000634560016080111520325500000444360085800002524625150701114869668)
 (.leaf 538360085800000796625150701116087787021814443600639000007856751307011166534300241944436006230000080960016100111373711908593444360002801517947650140101115057881105923823600714000072925251901011165721620471544436008490000877550020080110656887803236444360084500002480450220301115712189014044443600825000007776251507011073011560132944436006430000076170012070110694727903392444360002400000707450220701116916298105924443600803000076215751705011071768170000044436008450000418841024030111645929600000450360004800000680450220301106648982014034443600689000056725751701011154790660355444436006893131576760016010110700355505125444360084400007623550180501107797474))
 (.node 1 (.leaf 10592444360083900008804450220501115737219000004443600605000089616501408011070680440323644436008190000564345022030110706505000000532360013400002593430230301116325849000004443600001000003674502207011064382040000056446908070000763045022070111645820700000444360078200005392525190101107888801007624443601078000072854102401011082031530380044436000240000075445022100111546116503826444360002400000721450220701108201195068134443600867000088364502205011071254920512544436008070000895750020080110693170804641444360083500008853450220501107419003048764443600714000087905751705011077958990398244436008450000248845022030110674158004958444360080700007630450220701108233673)
 (.leaf 762444360113000007086390250501107920477035554443600842000069823102905011082874840140444436005670000595762515080110825477710592444360088800008870475210501116586447042364443600925000088854502205011079324320524044436000480000517845022050111535426603276444360080700005931450221001113867201014044443600664000065374502210011168103861059233436006890000366055018090111743490410592313360068900002901550180701108418745040974443600024000007324502207011165907281059243736008670535663147521050110677474110592444360082800008108700120501107316646105923843600908000077954752105011171267750681544436007192477741745022050110837420704916444360079000008801450220501108850034)))
 (.node 2 (.node 1 (.leaf 545360062700000573450220301107817918035534443600617090722914502203011155654640000056544506430000383860016080111728033300000626360002400002731450220701108057256066544443600025000028585002007011152277721059242236008280000784057517050110819307110592384360082800008943500200501107787542051254443600828120970574502205011083542281059240836008360000887245022050110827659504646444360000000001710450220301107858337000004443600026000019615751707011092620521059216136008280711895970012050111716871510592161360082810438849525190501116679566105920003600824000089674502205011177391880319344436010540000881845022050110885840105125444360080700006643450220501108711963)
 (.leaf 5125444360013400006041450220501116415484000004443600000000002294502203011085663921059238436008283439770960016050110870293710592000360084412998504350271401117715211000006263600000000054064502205011163793810000044436000000000022945022070110804031700000536360007200004196575170101108114786105921613600853174978626751305011089047820569744436007770000705745022050111805785110592444360088200008359310291401117670067049244443600686218569154502205011163624880355544436004000113342145022070110839215803607444360115900004506330280801117440687000005143600908000049734502207011089476390568744436000250000493755018070110885986810592045360080308398341330281401117305274))
 (.node 1 (.leaf 8924444360083600008379310291401109026524105924173600835000075063302812011087020190140444436000000000289445022050111579044800000444360002100000322450220301108309329000004443600413000041675751701011158933240000047236011010000501445022030110870532004138444360111800003580450220701108696400105924443600018000064056251507011092031601059206036000260000477557517070110966337210592412360082804887765550181401108872951105924443600643150286144502214011088996620042044436001360830688445022050110876912700000444360080700006689450220501109324140000004443600016000037004502205011148054561059244436007190000866545022140110899715509137444360082800008555350271001108893549)
 (.leaf 238444360074200000573450220301117297751051254443601113000033034502203011159170890070244436009680306522145022050111572588503555444360084800008801450221401118099979044084443600634000088004752114011092235870960444436008031240755045022120111639234610592206360070912408438450221201116215938105920001390689047283783302812111090959370512544436000070000371747521030111577507300420444360060500005008475210101110083820051254443600669385185973902512011174087270413844436008250000504945022080110947087700000444360068900006187575170701109765372002384443600689000061565751709011175410811059229236007991949879857517120111788715005697444360070425926977430231401116314218))))
 (.node 4 (.node 2 (.node 1 (.leaf 10592000360068204618477350271211116060268101314443600832122989755751712111094754961059244436007993030853437026140111063252200000522396084521105861310291201109726482000004593600766063679214502205011090568350355444436000000000353345022030110886543707237444360083601078781450221201117900386024454443600979000051414502208011157707210399544436011410000656645022070110961215810390444360085635249014500201401115271522093924443600835000085553502710111157099140972144436008360448899165014101111624383700000451360082814486581350271201115901644000004443600000000050324502205111085796010702044436009160000868443023050110970414010592086360082809298965575171201109866541)
 (.leaf 10592220360074202918940575171201109674782051254443600621000066414502205011097821170512644436011590000555833028010111046812001404444360089700006617500200801109617764000004733600018000064587001207011098706701059234736008651305894252519120110929873909604444360079931448938600161201118025420056964443600623264881893102912011097919980000052536000000000158445022051110958248002445444360104700004980475210801109389816030964443601026000077774502205011175902741059218336008032320889945022120111005564710592098360065621928953600161201109775486105920913600799410387634502212011159983851059200036008031410700633028101110946840405087444360000025363007450220511109302414))
 (.node 1 (.leaf 5125444360063900004864430230501109771801058724443600835010382953902512111099045730512544436006890000809070012010111029017810592444360068900006153625150801110244006105684443600643382589765501812011177154071059213636007710436886655018120111609606810592198360076637297495450221201110002655105920003600771377587124302312011162718391059216736006893189633335027101110965317505697444360011601032779450220501117568273000005813600000000025414502205111093892710000058636006170000311755018010111566439209604444360077102738916450221201110094615051254443600192000078396001601011105635000000044436008900000788945022010111735760404797444360094000007296370260101115732887)
 (.leaf 9094444360007200006498675130101116219166105921343600779000086654502210111173916520553744436004000000488345022101110948577804397444360001500001418450220511109670814012184443600000000033225251905011175739430000044436008360000295847521010110954980404121444360083200008944475211011116145714043974443600848000056063902505011106720680359944436009810000628257517010111022520810592000360077930358665450221201115894296000004443600021000024954502205111172955211059232736006890000571762515010111599473608837444360081901006071450221011117602629054884443600018000039844502210011171643620508744436005670000415837026101111740603606667444360082800007004450221011116016381)))
 (.node 2 (.node 1 (.leaf 9470444360069837278488450221201111333671094404443600669000088795501810111104585150462344436000000000287345022101111002971405125444360084904228643475211011110646483000004443600982000046395002001011181158801059244536008350000883645022101111025305803805444360079000006332450220501110608801105924443600803123765635251914011175604871059244436007041339862647521120111062335010592182360070434966737450221201117377096105920003600698413970915002012011099545480915444436006270000892852519101111059811009148444360084400005895390251011116069428056914443600567000044084502210111158245080580044436000000000430845022101111055852200000444360098200005015500200101110199561)
 (.leaf 10592446360077100009026625151201116346678105924443600849153688014502212011160534370619044436008562039856739025120111021158505125444360064300007207500200501118017290105924443600824054789415501814011106530041059232836007992818861835027120111115369110592000302070432138317450221201117521465000005803600207000072354502210111111669190569144436008280000673650020101110989613605488444360083700006258450221011110149133079104443600835000089674502210111104619761059244436008451697654245022100111624977409729444360076628068854430231201110603513099074443600601000089616501410111180582300532344436008350543530045022101111734588910592444360068909605246650140501116092830))
 (.node 1 (.leaf 8059444360023200007687450221011110983006072244443600384000086144502210111110968121059200036007990000843845022101111054700510592000360079900008317450221011115699587105920001070803022890316251512011179148540355444436006890000540845022050111870066010592444360079911838614450221201111304260105921803600832375088464102412011113014460000044436008192298809845022120111573181410455444360071900009026625151011111419957105924443600689257264515751714011183931720887744436006430000894350020161111119447405125444360082402268814410241201111484257000004443600862000027304752101011157694971059230036007420000635550020100111572120610592238360081905296098500201201116051291)
 (.leaf 10592444360081916578978500201201111306010096044443600807000084484752104011111278521059206336007713818872943023120111815283709773444360077700918912430231011111416146105924443600790000084493102916111111045960887744436006690000900567513161111164317106190444360077702258625370261011110955125105920003600837000082523702610011111474540977344436007040000902052519101111157496309462444360057600008847550181611116424481105920003600835135689314502212011182174270930544436004770000896067513050111813072710592444360077726278816475211201117897294098464443600341000085953502716111115502561059227136007790000860237026101111823656506190444360085602235457390251201115814214))))))
 (.node 16 (.node 8 (.node 4 (.node 2 (.node 1 (.leaf 8059444360018627738369525191011110609254105920540920835000049844502210111160915741059240636006860221654245022140111815962106939444360036628778383450221211116118741091484443600366211852314302310111110573791059227136008360000898755018101111175532410592338360068200006071450221011111822770105920003600698000089606751310011118371581059200036008350357848845022101111179515108064444360084907648084350271011111387144053174443600540089146624502201011157153041059244436008370753879950020120111809174405162444360068941688490550180401117841546105923603600698000065724752108011160544391059244436003070000861337026161111168716306708444360077100006993310291011114774890)
 (.leaf 10592047360077900007567410240711112843834028154443600100049840804502210011116988360806444436000270000567539025161111160357810592244360022600004257450221211116676670105926003600793062587625251910111120413921059219336007770493735845022140111259656708267444360071900008462430231211115469850068134443600669087874804302312011183969261059235236001642637383641024121111158277006844444360000300003489450220501112896790105920722460828000080204502210111121539081059200036008350487891645022120111199330410592348360076612907602450221401116209187105924443600799394755644502214011184972301059200036007712167662143023071111204408908064444360086500008514370261611111624122))
 (.node 1 (.leaf 8455444360068600008620410241611112341427105923723160467021356624502210111185255980756644436007990000630445022161111597354110592444360084410796641450220401118970426105921573600835000067554752109011123617020806444436007710000820470012161111190307110592170360059224508976450221211115988304105923403600799097176604502212011160054101059244436007710000893470012161111271206908064444360077100009023700121611118153261080834443600423000064834102410111158768011059200036008360730749545022100111227570910592158360070902097010475211211112000805099144443600656000049464102410111176422461059240236005920000390539025100111205569710592352360015707303894430231011112011019)
 (.leaf 8064444360077100008518700121611117964185105926263600505020888685251910111122788341059210636003661604545643023100111795293500000499360000000002493450221011111895059080644443600617000088534502216111183893170000044436008770958879941024121111268478508651444360082400004257450220801116112030090484443600528000086945002007111184250240806444436000200000389045022161111814171910592000360080304498800475211001118131208069834443600072000023074502210011154924480806444436002570595844735027161111829217010377444360042300008649600160711118603042063724443600779000080292503216111122893670000044436008490205892643023121111291556810592444360068211396997450221401118581123)))
 (.node 2 (.node 1 (.leaf 420444360055829267901370260711115924437066114443600060020458654502210111122957070681444436006170204544041024121111571788710592612360083602028801450221011112865116105920000970639020272994302307111185346910878744436002570000494641024161111574998300000444360022100002613500201611113079279105920003600221147286144502207111158507121059200936008481393231039025120111631672910592395360079302006813450221401118313206087874443600576000085043502716111127746390681444436002730000310745022100111809282210592226360083515487660450221001113064057105920003600793032087104502210011158961480877544436005170000872647521161111571850410377444360027306945338450220711113016853)
 (.leaf 10592339360014800005980475210711113032634068144443600592069484294502212011131376980000044436008561466896557517120111344598110592000360023200008528450221611113697600066114443600000000045434502210011129949521059200036002213760639452519071111342669910592000045028300677629475210711115934214105920003600828019774954502210011135326240767444436008751007901347521050111545899200000444360000000003729450221611112979875105924443600384006689575002016111150838341049244436002470000565341024071111601927609171444360042300007590430231611115608685098094443600384000041065002007111156335801059211136007790066863641024120111923617904269444360001100003421450220501113458804))
 (.node 1 (.leaf 5697444360088210948683410241201114011186105924443600777368784213502708011151109580980944436004500000883645022161111598096610592111360042320508967450221211114028330105920053600836099371873902510111188412490817744436008420544231041024120111687808910592444360006900008929500201611116378277105924443600019000090497001216111146950710569744436005050000853839025071111704776710592111360002500002091450221601112797134038174443600000000039524502210011186064960119944436008240064822339025120112038844110592444360010000009012450221611119114668105924443600057000089885251916111164574381059244436005280000872647521161111595607909809444360002600008584550181611113896927)
 (.leaf 2615444360000000003127450221001113396920105924443600558217788815251908011186134111049244436005170000886950020161111379252309919444360062300008016390251611115728433105921113600442006289124302312111141704370394344436000000000322345022100111883396401199444360019800003264450221001115339025096134443600870098186703702608011164983440837244436008072891901745022080111747405409149444360033400006542450221611118567067105924443600025000080786251516111190396301059244436000640000903162515161111913550310128444360013406498354500201611116633742105923683600621000079955251907111134010270979344436000720000782147521161111592686310592444360023200008573450221611116219541))))
 (.node 4 (.node 2 (.node 1 (.leaf 10492444360023200008743500201611116240401046794443600643000039694502210011135985601059244436001040000859967513161111655195310592444360006400008925575170711114940936079064443600709000048274502208111160796411041344436002930000886950020161111569575504269444360078200006777370260501116389107104314443600247000075724752116111144076791059200036001980000894447521121111583465910592218360068611448993450221211116387670105922183600714052889934502212111147912880221644436006820000485831029080111436111602445444360079000006955310291201118868755105924443600528000090355751716111161062061059244436004500000788945022161111894019710330444360014800007855575171611115998953)
 (.leaf 10592218360082400008986450221201119824763042694443600777000072323102908011190257451059244436000250000843252519161111631767910592444360002100008010700121611116136028105924443600558000078714502216111147982091043144436000100000889260016161111944430210592444360022600008600500201611115711034105924443600176000069974502216111159268661057744436002070000701557517161111604999510592218360082405228976450221201116015612092054443600486041188994502216111160078041059244436004000000867847521161111595607910592444360042300008292430231611116197304091914443600664000063945251916111157750501002644436000030000730345022161111617538110592218360077900007226390251211119085315))
 (.node 1 (.leaf 10592218360068200526506550181211115444009056974443600682000084874102402011195718320000055936009040519722841024020111630592910592444360015700008680650141611119837079105924443600020000090337001216111164174371059244436004420000889552519161111608772810592218360047700007599600161201114519867042244443600698000048883302808011155318131059244436002320000895360016161111477947710592444360018318968641500201611114683261105924443600000000080325501816111159558391059244436003410000896847521161111558902810592444360023200009008600161611115615838084824443600846004890124502212011164196951059244436000000000672355018161111436304010592444360032200005883475211611115954103)
 (.leaf 10592128360084400006594310291201115913891105924443600008000068046251516111159118771059244436002570000787247521161111625310810592000360002500007995525191611118520026105924443600104000090225751716111160171200537644436004770000306541024080111889288310592425360061724687130370261401115016529094014443600870204186793902514111159247011059244436004000000901245022161111540017410592444360022600009047625151611116371415105924443600879000086553502712011161849880537644436006820000372441024020111922037810592444360002400005144525191611119061883105920303600799050566293502712111148020091059202736006980614652129030120111579901210592117360016400006837575171401115993173)))
 (.node 2 (.node 1 (.leaf 9914444360091938646194475210811119470250105924443600008000065624502216111160356021059244436002830000787145022161111932854310592444360001900009052700121611119648698101664443600019000085996751316111208804481058244436002320000877162515161111983585010592132360084600006929330281201116013588105924443600192000088945501816111159360141059244436000220000904460016161111618801310592444360024700009008500201611115907716105920003600742016266992903012011148787210622644436005170000411037026080111906545510219444360084500009017450221401116021728105924443600349000090285002016111157725311059244436000190000904970012161111544389810592444360023200009032600161611116388469)
 (.leaf 9027444360079009018573450221611114826151105924443600669000090337001216111182949950823144436004420900895745022120111660160910592626360005500009020525191611116194652105924443600019000090527001216111160240441059244436000130000904965014161111611093707379444360087013898831410241401115780831105924443600669000090386751316111196457171059244436008440000505829030121111532188110592444360018300009016550181611115834478105920003600064000076235501816111194325381059200036008460033896850020120111960509910592444360002200009017700121611119935460089974443600824037982523702616111161035780943344436001700000819357517161111529721410592175209087000005137290301211115440336))
 (.node 1 (.leaf 10592444360011300009049650141611119958694051264443600865003188975002014011158893621059209636006130000455941024141111564509610592444360059201529026550181211115626153105921373600021000089986751314111156930091059211836001920000857262515101111567256910137444360063400008739575170911115512224105920003600634000074174502209011158981011059202633007421136663955018141111900282606814444360091600007235450221411115617556105924863600032000090275751714111157035231059262536008360000852337026101111635648610592000360014400008387550181011119645373092314443600467000087264752112011163820930884144436008251751893145022140111914398210592000360054000006358525191411115612973)
 (.leaf 8012444360059200007572475211411115754740105920001960558000045453902514111193256440866044436006050144583339025141111577454810592108360081900008971430231411115980540105920003600601000045253702612011191444581059228636004860000888152519090111533289008793444360083700008655350270901115816981105921763600779000090145002009111196466571059210836007820000864037026091111585149508170444360079000008455575171411115748838105921083600858000085463702610111163766561059244436002470000848845022161111933201003554444360089800008711370260801115975112105922153600322000081604502214011157467541059227636008190000900355018090111595990310592592360082800008825390250911116136615)))))
 (.node 8 (.node 4 (.node 2 (.node 1 (.leaf 10592444360023200008763450220711115686719105920003600592000076874502208011156174661059200036007140000848931029091111617066403554444360046700006641450220201119112091069304443600467000063063102902011158742040355444436005400000898645022100111585008704937444360063900007000350270201116057880105920003600782000076014752114011154569410960444436000182448401143023020111575917303554444360059200008971430231001115753917105920023600819000076304502214011156979781059244436007040000904965014140111518872408348444360066900005586350270801115908567105920003600486000085284502207111157674800301844436002260000710039025140111620933906104444360060500009025525190201116911116)
 (.leaf 10592000360070400008388410240711115707088105920003600634000086784752107111157220070277044436004860000745441024020111593625907437444360061300008876410240201116206878105920003600144000082305751708011158854091059233536006640000771747521020111613638610592126360043100107277370260801115775003105924443600627000073584502202011160268841059200036006640000790137026061111950132203554444360080300006547390250201115972038105920003600467000071063102908011158470510569744436005400000902450020100111585387003554444360056700008595350270201116200986035544443600486000070183502702011159562090681544436003570000810043023020111560481608440444360062300008199450220201116417061))
 (.node 1 (.leaf 2983444360104900008890410240201118017754047204443600467000073243102902011159002000140344436002320000776847521020111958544300420444360051700007795450220201115783799047204443600835023790004502202011157962600472044436004670000765133028020111954911709604444360060500005940350271401115802007105924443600366000089574502210111193942791059244436003490000883645022071111578907210592444360054900008890410241011115914084006974443600486000089774752102011192901070069744436002930000784547521020111696423310592000237054900007385430230201116287848047204443600613000089574502202011159476760521344436010590000878145022020111622504105533444360087500008915475210201119718769)
 (.leaf 10592332360048600007632370260201115840992056974443600517000075893502702011194187460628144436005670000869843023020111571222903309444360052800007768475210901115568745103694443600477000089394302307111158618220000044436006430000901745022020111961682000000444360068900009017450220201119960108071484443600807000089814302302011161796110979444436004860000901347521020111608685805632444360100500008920410240201116719525012854443600890000084624302302011171890130522144436009890000896243023020111600582404720444360048600009029675130201115354959095284443600186000087995002014111163376260000044436006890000896243023020111611104206233444360082801298864410240901115766218)))
 (.node 2 (.node 1 (.leaf 562360055800009017450220201120070396000004443600682000090174502202011167832960922744436005920000904365014091111578544806308444360048600008965575170201115851005032244443600613000084713702602011162365301059200036001480000896655018090111593888110592073360038400007465410240801115637913056974443600601000089304752102011157615820960444436004670000707933028020111590196810592444360034900006587525190801115347365105924443600486000071524752108011157523311059207336004000000588447521081111580257009812444360090411979009525191411115890254000004443600613000090234752102011171495601059229636004670000688931029020111592589510592444360028300008724550180801118911265)
 (.leaf 10592444360047700007838450221401115968274047204443600549000088544302308011151590641059207336004500000735845022080111575237200000475360048600004623390251001115627549068154443600486000086993702602011162904881059208036000480135854357517090111560903310592603360011600147931575170901115831218105921893600164000088916251508011188380751059218936002260000856652519080111526979300000562360068600008028330280201119324281105922123600779000041094502209111190965970323444436004860000861835027020111600032906190444360048600008396475210201116035167105926033600148000077946001609111154278711059244436001440000861862515080111539698010592189360046700005376330280801115699780))
 (.node 1 (.leaf 4622444360054900008957450220201116309090061904443600477000074023702602011161600371059260436007991349738541024080111590607805454444360062700008745410240201116448208105924443600634000074643302802011158518350874644436001640000803757517080111571548806190444360046700007289310290201115863167105921893600477096267335501808011155507870000044436006890000737735027020111639968503554444360068200008709390250201116342417105920003600634000082584502202011158691440966944436004130000883447521090111525982208792444360062700008976450220201119111444105926043600836000082934302308011157037320000044436000110000457745022020111598735309234444360071400008905410240201115841810)
 (.leaf 10592398360046700007795475210901119334979096694443600349000070253902509011157559741020644436007710000759441024020112000550510592024205071911367364410241401115916442105920813600341000062344502209111194119111059200036001830000707435027080111582122803554444360071400008876410240201120466759105920083600617000072443502702011159918791059203836008390000893762515080111532406710592038360087000008992625150901115720400098164443600207000054884102409011193337201059244436001640000827555018090111958468410592245360054000008602370260901115993243105925973600505000078783702609011158005501059208136006430000596457517081111895407510592444360054900007411525190911115799725))))
 (.node 4 (.node 2 (.node 1 (.leaf 10592444360002800007739525190901115686882105924443600766000089814302309011162743580949244436004770000697539025140111954414010592000360027300008618625150911115911634105921403600634000089936001609011162316370820044436008390000516939025101111586430510592464360022600008832525190911115768267105920123600623000086806501409111198306061059244436007190000874437026090111691156710592610360034920017133370260901115785702102064443600682000089574502208011159960370681444436008070000880343023041111592394106814444360080700008962430230211119373836105920003600357000089444752107111191983000681444436007990000901745022090111619398510592337360042313968898475211401115156361)
 (.leaf 9505444360057600008925575171611115306991105920123600334000088315501809111159591750743944436005050000651045022041111913374510592444360014800008126625150711115717087105414443600898000090345501809011164792461059244436005050000904865014091111589205910592444360059200009052700120711115439966105924443600601000081487001207111158536961059244436001920000805465014071111574744210592444360062100008814410241011119106506105923373600384000072024302309011149848541059244436006270000900352519071111581336203242444360079300008744370260411115075101105921713600283000087795501809111163219410679344436004130000544041024041111464000003242444360082400008912430230401115229604))
 (.node 1 (.leaf 10592337360006900009001600161401114694714105920000000273000060136251516111158332090847944436000140000771337026091111934702910592444360062100007583390250711114944961105924443600825000087613902504011156683851059226536004670000700237026090111537671009299444360048600008611525190911116042138105920003600450000074004102407111190043911059244436003340000894155018091111496304810592000360046714238246310291001114221302105924443600334000089415501809111158805901059200010306270000779155018071111895180610592444360011600006450600160711115071302105920003600643000061434502209111141912201059230836004420000615043023081111653364309235444360059200008618350270411115505501)
 (.leaf 8863444360015700008869500200811115828738105924443600477000081487001207111184956150886344436006820000514452519091111542755310592444360002500007993575170711115992383105924443600450000088253902510111188478891059244436008350000901245022041111906660710592094360033400008847550180711116371689105920003600714000077675002007111156723251059200036001360000896745022071111873569610592094360034100008671550180711118868207105920001950585000087804102404111159190021059244436008350000899345022041111932812603965444360066917296602290301401116484878105924443600664000090225751707111146315671059244436006010000905270012161111534046210592094360033400008879550180711114640784)))
 (.node 2 (.node 1 (.leaf 10592444360059200009052700121611114986755105924542240714000066694752107111164525081059221636006341802543257517101111850731510592444360059200009052700120711115850459061904443600777041665023102914011162252861059200036004000000656255018071111410169310592444360059200009052700121611116065703105920003600605000089774752107111160508361059200036008350000832541024090111572715910592444360002100008075575170711115820681105920003600807074884913502710011160293671059244436005850000892041024071111585974109701444360066900008943500201011116060056105924443600605000081267001207111159824351059200036007190000874437026071111585734110592599360038400005717625150711113369958)
 (.leaf 10592444360014400006531550180711113752465105924443600257000066114752107111134305211059244436001570000672355018071111845816510592444360003300009041575170711114487186105924443600183000079505751707111142654400967744436005670000900160016071111426215710592000360071400008628350270711115026161091154443600790385681994502212011158205561059244436006690000901055018071111471950606425444360044200009013475210711116065390105920003600307031079534752107111134874461059210136001760000756952519071111590815210592444360062100006423500201211113653587105921013600528000086253702607111140220121051244436007140545757050020071111620456810592103306084900008028330281001113442867))
 (.node 1 (.leaf 10592000360038400678995500200711119218055049634443600714000090255251907111169335651030044436009250322879941024120111300655708590444360062319747569525191211115914994098834443600871044489264302312011126327301059244436008280000849433028120111247218808389444360071402028685370261211119583629105921013600413000087634502207111160744791059225136003660000854843023071111793798409991444360035700007967410240711111597294099914443600198000083834502207111109395190848844436003660000487241024071111112322109497444360034100008441410241011110869425099234443600585000085484302307111101599420398144436004770000669730002050111665699710592444360050500006697300021401115418317)
 (.leaf 1296444360062300000898300001501087446708022904443600623000008983000015010894654690033344436006230000080545022100109152070500461444360062300000558450221001092288506028234443600623000003984502215011134826720318944436006230000010030000150111348267203188444360019800000100300001501113482672031884443600198000000003000015011134826720265244436006230000045130000150109099924103188444360019800000000300001501113482672031884443600198000000003000015011134826720311544436001980000000030000150111348267203077444360019800000000300001501113482672025494443600623000008673000015011133255680337944436001980000000000003150109200352503131444360019800000000300001501113482672)))))))
 (.node 32 (.node 16 (.node 8 (.node 4 (.node 2 (.node 1 (.leaf 3137444360019800000000300001501113482672031834443600198000000003000015011134826720317844436001980000000030000150111348267203277444360019800000000300001501113482672031024443600486000000003000015011137454880310244436004860000000030000150109350421703271444360019800000000300001501113482672032484443600198000000003000015011134826720362444436001980000003245022150109450041203249444360019800000000300001501113482672032644443600232000000003000015011134826720320044436003070000000030000150111348267203200444360038400000000300001501113482672032004443600486000000003000015011134826720320044436004860000000030000150111348267203102444360048600000000300001501113482672)
 (.leaf 2334444360048600000046300001501094500412031024443600486000000003000015011134826720230944436006230000042830000150109549283701046444360083200001379450221001097996381015594443600870000014174502207010989107620278144436004860000000030000150111399401101559444360087000001354450220701099120842031864443600486000000003000015010979554380266144436004860000006830000150109844449103186444360048600000000300001501114058985031864443600486000000003000015010984444910239644436006230000013630000150109844449102067444360087000001396450220701099821985031864443600486000000003000015010989199750155944436008700000144345022070109965366803006444360079900001435450220701099843378))
 (.node 1 (.leaf 1643444360096400001443450220701100088484017174443600888000009364502207011004697480303744436004860000000030000150109964778102366444360096400001396450220701101431739017174443600845000007414502207011160505480000062636008480000088645022070110101762401731444360062300000936450221001100938272023664443601012000014434502207011015187420164344436008450000144345022070110112818401707444360087000001501450221001115172384032654443600870000015474502207011154665500128044436001760000071060016100110113168601643444360065600000436450220701116033285016434443600592000008674502207011009256210267544436008700000150145022070110134082203610444360048600000000300001501114311447)
 (.leaf 444360068200003825550180701101528872033224443600870000014654502207011164180460164344436002210000034545022070110141291201783444360084500001396450220701115850345024454443600845000004514502207011016711540512644436008450000133945022070110201526901217444360085600001470450220701116077877036104443600486000000003000015011008466410294844436004860000000030000150111348267206340444360093600005777525190801116120116105923833600719000009784502207011027079760137244436008450000150145022070110276852100000000360084800001339450220701115909972026624443600623000009164502207011020704210361044436004860000000030000150110108412606501444360068907805340550180801116253555)))
 (.node 2 (.node 1 (.leaf 452360084500001305370260701102875495010814443600656000012304502207011022893380008644436007040000078047521070110272304307341444360062300001427450220701103009920036104443600486000000003000015011144305900294744436008390000095245022070110353866700000444360001400000199450220701102862011002384443600334000011154502207011026355180000035536008450000147945022070110338430600000444360077900001548550180701101743003028464443600486000000523000015011015566660337044436004860000000030000150111451332503218444360048600000000300001501113482672038904443600870000015104502207011152169990164344436000030000035745022070111582608101643444360081900000886450220701115885330)
 (.leaf 4783444360084500000770390250701114730234051264443600845000008434302308011026933560512644436008450000139645022070111577548904735444360047700001180450220701103205964000004443600845000012834502207011029754150000045236003070000101045022070110294437200000444360001100000267450220701102654649000006263600714000016964752107011033189090130444436006230000068660016100111532991402986444360048600000000300001501113482672105920443600828047664756251508011031607150315444436009430000481952519070110305248604783444360074200000714450220701102886774051264443600803000014274502207011035151930000044436008440000147945022070110360767501457444360062300000787600161001102472883))
 (.node 1 (.leaf 4397444360085800006896600160701116154276000005073600000000009874502207011154057440000044436002730000039545022070110348552900000487360080700003362450220801103524234002384443600782000033124752108011030313310000052136011410000409139025070110296395600000521360114100000631390250901102385789000004943600704000055705501808011037300120000044436007660000589357517080111600726910592325360103500006140525190801103814034000004443600704000027444502207011034699050334744436008450000138743023080110448895900000444360083500001443450220701104287503007864443600576000004814502207011153450980000049336006170000076562515080110382313810592370360068900006888550180801115772496)
 (.leaf 444360059200004632600160701103119953000004443600656000044175751708011047095490181544436008450000064739025070111604599300000579360001100000218450220701103946803000004533601141000033763902509011036710520000053945508580000076262515070111456488802971444360048600000021300001501113325568058384443600986000063945251908011039642690000044436008770000444347521070111492727900000490360000800000322450220701103749887004204443600000000003834502207011040034910414244436000000000077445022070110396279500000444360083700001542450220701115869377000004923600623000011476001607011044623631059229936006890653579455018080110443208110592357360090400006454525190801104843998))))
 (.node 4 (.node 2 (.node 1 (.leaf 4397444360071400006325550180801104821599043974443600558000077115751708011048668990042044436009160000860050020010110500716800000444360002500000322450220801114600211000004443600307000007414502207011043832820512644436008360000142745022070110516259700000444360022600001076450220701104836883000005793600000000003954502207011046278790042044436003570000028539025070110424833300000444360083500001363600160701104492221000000003600623000011736001607011157399030358444436004860000000030000150110318314002445444360068900006999550180801116297442000004523600000000009564502207011045552250000053336001830000211052519080110488156803554444360083500002566600160801104844053)
 (.leaf 734444360084500001106625150701116154260043974443600689000054115501808011165830771059244436005580000762157517080110584365410592190360082500007711575170801116580738105924443600714000077645751708011053013341059244436008980000677557517080111618836405126444360000000000303450220701116514183007624443600477000003623902507011052610970151244436004670000048145022070110500746900000444360082500002218450220801105148003000004443600858000029466251509011158769891059244436009390000762157517080110596859310592444360080700005643450220801115957080000004443600837000004024502208011049011220000044436008360000225055018080110686342604397444360068901716667575170101105942591))
 (.node 1 (.leaf 557360074200003574450220801114657318056304443600689380455256001605011156168960467744436008450000089845022030110591127600000563462068900008916450220801116517358105920003600799000039376001608011059008550000044436008350000247160016080111487519510592561360079900002975600160901105160495000004443600858000008046251507011160029230000053836008440000079662515070111485470610592429360071400006264525190801105801725048594443600828000075945501805011067627450323644436008450000210545022030110662392700000444360000800000303450220701105837943045954443600164000020895251910011157878071059235936006892567552560016010110655129510592444360071400006702525190501105216626)
 (.leaf 4715444360079300008791550180801106304761000004443600845000032153902503011066019250140444436006560000073862515070110747106601329444360064300000736700120701106975669021814443600643000008187001207011068615841059238236006230000620547521050111523803410592444360083200008723450220801116559406000004503600643000008314502203011068495950339244436000240000069945022070110776499903554444360068900006321600160101107410532051254443600844000077125501805011075795490000044436005760000893665014010110731424103236444360080700004395450220301106521598000004443600000000003674502207011150843250000044436007140000517655018010110797649400762444360106100007344410240101107762246)))
 (.node 2 (.node 1 (.leaf 3826444360002400000689450220701108164523014034443600689274670155751701011171106501059244436008490000759850020050110826492206813444360079000008853450220501115459066051254443600853000089444502208011068466191059202936008480000881845022050110745998804876444360062700008858625150801107789025052404443600845000037474502203011155480960000053242500000000183445022030110699167303982444360084500001645450220301106702664050904443600807000076604502207011082608210495844436008070000768745022070111742687000762444360092300007255450220101116069641035554443600845000070793302801011166054250140444436005170000626562515090110816622104236444360097800008916450220501108042195)
 (.leaf 3553444360084500002914450220301107299385105923133600689000028635501807011085566091059243736007790000670455018050111670384310592444360082800008014600160501117038095105921613600779341072644302305011079413010491644436006820000884952519050110847020300000545360055800000644450220301117075404105923343600689000042395501809011170970200000062636000240000272145022070110799504810592422360082807218034625151401115963557051254443600828134068844502205011080259381059240836008192175887245022050111728285204646444360000000001934450220301107864791000006263600028000028145501808011086570860000044436000260000316057517070111699325203193444360105400008899450220501116352660))
 (.node 1 (.leaf 10592161360082822968935675130501116298195049244443600807000066894502205011091295800000062648500000000537845022050111619543210592384360082817628967525190501108601712049244443600686000065504502205011173204480000044436000000000036745022070111693325600000536360010400005154575170101108470894105921613600901153077915501805011088886101059244436007791413855339025140110880828701404444360000000004301450220501108418385035554443600954000082604502207011085218510000051436009510000415545022090111697171405687444360001700004928600160701109409143056974443600799031366214302314011166579250892444436008390496826329030140110890300110592417360084500007587310291201108580811)
 (.leaf 444360000000000296450220301108234967000004723601141000045294502203011161175871059244436000210000648860016070110912896710592060360002600004873575170701118125815105924123600828222977655501814011162805340042044436007663730664039025140110908142800000444360071400002350475210101117421284035554443600980000087814502205011179610071059244436007192956866545022120110951930110592206360071932318588475210501117520031091374443600835000083793102910011091574150512544436007040000876345022120110914796404408444360064300008895525191201109484692105922923600828030289236251514011166062660569744436007771881729745022120111679052810592000360065617828437350271211109188342)))))
 (.node 8 (.node 4 (.node 2 (.node 1 (.leaf 5125444360084601093783475210501117073584004204443600623157046013702605011169238490413844436008420000504945022080111612873002445444360112600004727450220701115853100000004443600528000064336251507011094275091039044436008372180892041024100111412982609604444360077727358816475211201116263853101314443600836046189574502210111095141711059244436007141864874541024050111661725702445444360084221105937310291201109383890000004593600669243779654502212011157603980355444436000000000168545022030111706742103995444360114100006609450220701116289178105924443600207000060966501408011094121750723744436007790000880047521120110960780707020444360101600008801450220501109402054)
 (.leaf 10592086399087000008964600160101110129981105922203600689044589736251512011097163550512544436008070929615733028140110956843803096444360086200007109450220501109132537051264443601159000056693302805011097391290140444436010400000656947521080110951304100000473360020700006239675130701110012585105923473600858044289415501805011096637040000052539500110000268945022051111575461802445444360082800008159475211401109468983105684443600585373790205251914011097857741059218336008363522895847521120111015510410592098360077125368936650140101110039568105921363600669000089516251512011099754771059200036008362536718437026101110955416405697444360019824364232450221401116265048))
 (.node 1 (.leaf 5087444360000711773678450221001109152263058724443600835000086144502210011178063050512544436006890000678467513010111777779704797444360088500007044330280801115548530105924443600689000063736251508011100177841059219836007093168757247521120111019239810592091360077138868635430231201117537371105921343600779000088364502210111174603271059216736006641166662143023121110951814300000581360000010372241450220511116991682096044443600790000089164502212011099807400512544436006230000768745022010111815147610592000360068616948462430231201115688757055374443600431000079804502210111174171021059244436000600597191643023051110947254800000586360068900002666550180101117177474)
 (.leaf 4397444360084200007030430230501110148099035994443601102000063125251908011162045310909444436006890000680462515100111566415408837444360083600006119430231011116097303050874443600486042953253902510011096230820666744436008360000720243023101111528728601218444360045000004085500200501109964796045834443600836000088945501810111102651411059200018707772206891155018120111038695000000444360002500004126450220511117424855000005863600858000039885251901011160825361059232736006891124615962515050111578371209470444360070904228665450221201118172761094404443600790000088815251910111179977440462344436000000000431845022101110983188705125444360084800008590475211011117582578)))
 (.node 2 (.node 1 (.leaf 10592445360083500008781450221011117701805105924463600771000089944752112011164119010380544436009690000648445022050111041413110592444360066435938818450221201110489090105924193600803099250084752114011108039771059200036006864065844847521120110987107509154444360068600008940575171011110282422054884443600000041844084502210111106195320000044436009820414444250020010111053927310592444360080300006140525190501110536523105921823600828350468134502212011106863200914844436008280000555833028101111090846205691444360083900975437450221011117361836061904443600862041486663902512011159697311059244436008352747878145022100111087103603981444360068900006610450220501109371412)
 (.leaf 10592444360079024388955550181201110547329105923283600825294385853902512011178884970000058046602470000866545022101111094300905691444360082800007940500201011109901064054884443600835000063824502210111172922620791044436008350000504145022101111017547007910444360083500008818450221011115859781051254443600689000073116501405011161346120875644436007793177843845022121111542368010592262360088830478541330281201115972677099074443600605083289264302310111111947350805944436002320000760245022101111033156507224444360023200008781450221011117786253105924443600592022889405751712011162761921059218036008283511891243023120111126447710455444360077705379006650141011110938700))
 (.node 1 (.leaf 444360085608183501475210111111470852105923003210803022684884502210111176343690684844436006891824735845022050111128818300000444360079923938383450221201115692634051254443600714210985484302314011163336521059244436007090669781360016140111175001310592444360082411698780410241201117928429096044443600825081182414502204011115439510977344436006430000900250020101111166949310592444360074200008356290301611111145664088774443600643000089996501416111117383270619044436008190669846135027101111112592910592000360083700008084350271001111143989093054443600549389190136501405011159597611059223836006431367759043023120111623735610592063360068627928487410240401111534307)
 (.leaf 6190444360084608068585390251201111080891098464443600232000082012703116111117446731059212336006340222507845022101111141662710592000125083500008931450221201116059469069394443600682114390165501810011118544810805944436001980376856652519101111072468709148444360070426468526410241011117680801105922713600836000089885251912111116940161059233836007141761636445022101111174295910592000360082403648845650141001111626031105920000390836063886654502210111179512660806444436007710638771337026161111588120910592444360052800008124270311611111147868051624443600714188662906501404011147166801059238136008420000554652519100111206677010592047308082800007299430231211116373742))))
 (.node 4 (.node 2 (.node 1 (.leaf 8487444360061700008162390251401116067614028154443600170000032664302310011156849620806444436001830000809733028161111149128810592088360070902158892600161001118081476105920003600766062574954502214011185811981059235236004313031489143023121111160546810592244360019202153952450221211113607972068444443600004000041094502205011189007981059201936008360871848845022101111588671410592000360083502138885450221201117888037105920003600400332483173702607111123917950806444436008970000871243023161111210318508455444360066900005962430231611116251890105923483600742171076874502212011159425961059244436006822369688445022140111592361710592157360082800006669475210901112029931)
 (.leaf 8064444360077100008959700121611118217623000004443600836411687124302312111163088341059244436008581072699745022040111341819909914444360064307334891430231011111818719105924443600771000089207001216111125445710806444436007710000828470012161111805812010592170360062133678993450221211116083426105920003600837214575234502210011121612671059234036008071270766045022120111617949110592158360069802098539475211211112275141105924023600639161741693502710111119284841059235236001340000432343023101111788418508064444360082400008868525191611113004781105926263600540033189115501810111182744370000049936000140000247645022100111191747408064444360023208448069270311211115799436))
 (.node 1 (.leaf 444360087107268912430231211112546130105921063600704343581623902507111184163950806444436004500000897655018161111830216908651444360084904498428370261211115823520090484443600709007582463102907111124955031037744436006642753900665014071111827737710592000360083200007709600161001117896165105924443600682000073584502214011182859350698344436001700000288543023101111213550606372444360071900008182270311611115763323000004443600890093588314102412111161919500846844436006980000696645022071111598281210592612360084211318710450221011112641078105922213600257000086654502207111159609160681444436007420821808043023121111259693308787444360059200008516350271611115600686)
 (.leaf 10592000360022110168241450221011116007433105922261270835121676304502210011130882351059239536007192739744745022140111839580910377444360054000005173450220711118533078105923393600013069439524502207111131255160681444436000000000272145022100111292233106814444360076637468698430231201113029839000004443600865202188374302312011159455710661144436000000000457745022100111298736110592000360022140016227525190711113046896105920003600742145475234502210011195324960000044436000040000258445022160111817455710592481360032214497548475210711116065309042694443600000000031394502205011137326210569744436008851282855937026120111372582610592444360079900008107310290801114632517)))
 (.node 2 (.node 1 (.leaf 10592444360038400008995500201611117016158104924443600442152184083902512111159405720980944436003490000716850020161111288402010592111360014418058783430231211116055522105921113600777054587253902512011143900961059244436001860000895745022161111643527210592444360017000009013475211611115941056105924443600019000090237001216111146531040980944436006560000859739025161111874681110592111360077900002091450221001118214831105920053600836031167983302810111145291181049244436007713473849837026161111951812509809444360006000008846575171611114010957026154443600000000033664502210011183511730381744436000000000395245022100111569034601199444360083700007885410241201117410128)
 (.leaf 10592111360055800008742390251211113991701105924443600477149890165751702011158772240991944436003340000817445022161111359212003943444360000000003338450221001118421487011994443600505000025094502205011154690460961344436008621563855433028080111635306310592444360034900008814525191611116358743104924443600186000088155002016111191714730914944436003410000693945022161111391479810592444360023200006755475211611119211177105924443600170000090315751716111144169991059244436006210000868857517161111655878604679444360022100004486450221001113440661105924443600148000090105501816111148877290426944436007710000392535027050111450592302445444360079900008288310291201116160927))
 (.node 1 (.leaf 7906444360077107475251450220711114523175103304443600048000082436501416111143439381043144436002210000754750020161111449105310592218360068900568986450221201119271765022164443600709000040323302808011158920390426944436008030640744831029080111440821610592444360002700008463500201611114632590105920003600226018389684752112111159600251059221836007931869899345022121111554346110592444360000000007769450221611119098972104314443600019000083567001216111153929411059244436002320000871045022161111895330510577444360006400008434625151611119092353105922183600824041389674502212011156756781059221836003340053703043023071111930414210592444360001900007791550181611116319987)
 (.leaf 10592218360080700528967450221201114972214105924443600247000085576001616111161675821002644436002320000868341024161111592243710592218360071413668898475211201118901241056974443600844000076814102402011163152810000055936009080000648341024020111600218104224444360071900004888330280801114961919105924443600232000089856001616111159386991059244436001980000867155018161111517172110592444360091600008846410241611114911018105924443600366000090064502216111164332881059244436001830000893860016161111681724910592444360000000006762550181611116037162105924443600186000088665501816111159593230848244436008700000901245022120111673199510592444360036600007495450221611118963133))))))
 (.node 16 (.node 8 (.node 4 (.node 2 (.node 1 (.leaf 10592444360020700009047625151611115672547105921283600867028870342703112011149989800422444436005170000812337026080111483010710592444360034900009023475211611115382675053764443600682000041324302308011192331200991444436007770000330445022081111488921010592030360076601686381330281201114943190053764443600682000034214102408011150800661059244436000640000587855018161111536645410592027360045000007332500201201115048393105921173600357028270336001612011150989361059244436001360000903055018161111937784010166444360001900009034675131611116691905105924443600247000081096251516111160140441058244436002320000850867513161111574862310592444360001900009052700121611119425666)
 (.leaf 6226444360084800005653410240811115799770102194443600870000090234752102011152635071059244436001700000904062515161111536917310592444360060100009049700121611113930364105920003600865003865202703112011150680120823144436008420000902347521120111582506610592444360002100009047625151611115226908105924443600033000090506751316111164595531059244436000190000905170012161111663383609027444360062300008573450221611115152567105924443600477000089056751316111159779681059244436006390000894870012161111583914710592626360002100009045625151611116160462105920003600002000087245501816111154675151059244436008650000512831029121111584585408997444360080300005780370261611116040178))
 (.node 1 (.leaf 10592444360017600008671550181611116236454105924443600064000090396501416111204376800943344436001480000718152519161111507740610592000360078210646746310291211115993861105920003600704106489164502212011162753111059244436000220000904770012161111612838410592096360062700004323430231211115460548101374443600442000087625251914111152322541059200036006820000749545022141111551508710592135360046700007424625151411115501977105921373600021000090246751314111188912571059211836001130000870060016141111531579210592625360013400009029675131011116198408068144443600917000071744502214111193519641059248613200480686904562515141111589528510592626360060500008698430231411119754086)
 (.leaf 9649444360016400007967410240711116046261105920002890567000076584752114111157838391059205336006270000770960016141111610178710592444360063418066399450221411115784681105921083600634000089575002014111197361940817044436003410000795347521141111584040208793444360020700008577370261001115924549105921083600782000086183502709111158543391059200036005280000575643023090111913341910592286360046700008868525190901115679209105925663600709000088854502209011156979651059227636006860466894447521090111963455210592592360071400008650410240901116052233105921083600824000087783902509111160535270355444436008980000867037026090111583208210592626360071400008439310290901120060501)))
 (.node 2 (.node 1 (.leaf 10592444360014400008614450220711119466550105924443600232000080204502216111159768660693044436004670000749539025140111595621910592000360066900007687450221401115571861096044443600134000044164302302011157460350355444436005400000896745022100111608700803018444360033400006062370260201120116534035544443600592000089394302310011156751681059200036006230000765750020140111917991510592000360048600008684430230711119244124059704443600232000074115251902011158439410743744436005760000865535027020111602848610592002360062300007793500201401119456938083484443600790000054153702610011164022041059200036007990000817445022071111951382710592000147014800108156525190801119466419)
 (.leaf 10592126343045000007317390250201116052450079854443600540000079515501802011158442081059226136007420000705745022020111601767803554444360087200007079330280201119775415105920003600467000070763102908011155845991059200036004130000799743023071111596229103554444360048600007089350270201116088787035544443600567000085663502702011163412120879344436005280000895847521100111598999408440444360046700007975410240201116469248068154443600247000082164502202011157403870472044436004670000746431029020111556971204720444360088800008993450220201119321040096044443600307000074214302314111153274050140344436004860000788945022020111973961500420444360048600007948475210201115803515))
 (.node 1 (.leaf 10592444360057600008952430231011119588390105924443600384000088034302307111158734551059200036005670000732143023020111603499404720444360062703438931450220201116169052052134443600950160288714302302011156886220069744436004860000844245022020111587343900697444360048600009023475210201121214017062814443600486000086364102402011192735920553344436006210000901745022140111577167210369444360043100008981430231011115908111097944443600782000090174502202011196971750128544436010690000889643023020111748858400000444360066400009017450220201116097497000004443600643000089814302302011161613450623344436008910241886441024090111585527704720444360048600009042675130201115567573)
 (.leaf 9528444360018600008976550181411116212010052214443601018055989934502202011158286610000044436005170000901245022020111623400500000444360080300009017450220201116704464105920003600400000085283502702011159334860322444436005920000849135027020111647829405697444360071400008957450220201116260229105924443600384000071685002008011153595101059244436002210000886557517080111905732910592073360022100007717475210811115671140105922963600467000068893102902011159503591059244436004130000879950020080111539220210592444360048600007485675130201115719253047204443600558000088834302308011152910290000047536000690000575643023021111522864400000562360069800007339330280201119576674))))
 (.node 4 (.node 2 (.node 1 (.leaf 6815444360048600009001475210201116719572105926033600021056781315751709011158310200323444436004860000856635027020111604058410592080360002800008131575170901119210893105924443600232000088315501808011152130161059218936004770000619447521080111566149806190444360048600008254430230201115987353105920733600486035968293702608011191702991059221218107660000544045022080111576015904622444360056700008725390250201119898641024454443600528000079754102402011159827780545444436006010000882043023020112001140108746444360036600006772500200811115433531105921893600486000069275251908011188757290000044436006860000856739025020111607502306190444360046700007128330280201116002495)
 (.leaf 10592000360059200007137390250901115982838087924443600621000087834302302011156311720966944436003070000752047521090111543980000000444360064300006946370260201116140087105923983600467000075524302309011158218261059260436007140000816045022080111589155209669444360028300007245390250901119217302092344443600825000088764102402011197437740355444436006560000887641024020111679017410592008360082800007569410240201115869821105920383600486000087136251508011159083351059208136005920000872943023091111562536310592000360011300007122350270801115835135098164443600136000057844102409011158443431059244436007990000821543023090111616841610592245360054000008523370260901119555395))
 (.node 1 (.leaf 10592597360050500007824370260901115989691105920383600870000089846251509011195090711059260236004860000864267513091111914969710592444360001600007683550180901115683018094924443600442000087294302314011159808121059205936004670000683231029090111510041710592397360030700008743500200911115973294105920003600334000089076251509111154282041059214036007770000896655018091111950749008200444360034900005564450220711119041543102064443600431000088374302308011156752561059201236004670000877162515091111973602210592000138035700008914500200911118945408068144443600766000081404502204111163724381059201236003340000886655018091111548161507439444360024700008626475210411119670885)
 (.leaf 10592337360046704958523370261401115065310105924443600283000081486501407111158082921059244436001700000807762515071111481054410592444360064300008699370261011115925885105924443600592000090517001207111152548351059244436006170000805560016071111633938010592337360046702816765290301401115789069105924443600400000090506751309111159047611059217136007090000581147521091111610134206793444360081901687376475210411119161829032424443600862000087423902508011151887211059233736001162084898755018140111869448709299444360060100008799500200811115793671105920000270682000061194302307111148027631059244436006640000758339025071111500886410592444360085300008761390250401115495877)))
 (.node 2 (.node 1 (.leaf 10592265360052800005653330280901115007232084794443600148000089885251909111159438821059244436003340000892755018091111489241310592444360033400008927550180911114940508105924443600623000089675251907111191223941059200036004670922881845022100111411843910592444360010400006611575170711115964934105920001350413017360015251909111185546661059244436000260000904460016071111408704509235444360058500008846410240411119915643105924443600170000080325501807111193292071059230836004310048776945022081111987624108863444360070400005356475210911119134439088634443600148000088646001609011189296281059244436007190000884039025071111866778010592444360066900008864410240801114567416)
 (.leaf 10592094360033400008879550180711119780906105920003600627000077155002007111140994021059200036006210000883141024071111584228103965444360066416666675290301401116194118105920943600334000086715501807111152676961059244436006270000904062515071111501692010592000360058500008695390250411115956462105924443600828000089864502209011192587061059209436003340000889455018071111881362410592444360062300009044600161611116110563105924443600592000090527001216111161141660619044436008190000515731029020112007536110592000360071400006194475211611116632034105922163600283000057856251510111157486061059200036001570000793157517071111919225110592444360062100009047625150711116034722))
 (.node 1 (.leaf 10592000360033400009020525190711116387064105920003600828000082683102909011158105201059244436000210000805457517071111897716110592444360028300009028500200711118726910097014443600605030589674502210111190735371059259936006430000546452519071111539376110592444360041300006419550180711115690810105924443600257000066325002007111182495521059244436003840000903352519071111423264110592444360061300008032550180711116113933105924443600215000079745501807111161086081059200036006270000887641024071111596701909677444360056700008491350270711115761297105924443600183000067455251907111155903831059200036006980000884039025071111962613910592444360068200008976550180711116174268)
 (.leaf 9115444360081901917812430231201115916252105920003600634019164574752107111157795880642544436006170000878041024071111638452310592101360020700008476525190711118707964105924443600334318363255501808111139494991051244436007790548754457517071111605343209813444360084600678097330281001113295568105920003600698000090184752107111139653230859044436003840441781952519121111331249110300444360098003228466330281201113011367083894443600714032288403902512111196428090988344436008370444898645022120111294236310592444360081900008554330281201112194591105921013600450000086354302307111126007671059225136005050000838841024071111822512109991444360034100008049410240711111636658)))))
 (.node 8 (.node 4 (.node 2 (.node 1 (.leaf 9991444360033400008123410240711117898789084884443600307000051454302307111110511090949744436004310000855339025101111748504609923444360062300008548430230711109867440000004443600000000051413000210011162679911059244436005920000669730002140111775177103309444360015700007986300021401115708618012964443600623000006713000015010874467080229044436006230000100930000150108946546900333444360062300000805450221501091375945028234443600623000008984502215011133255680318944436006230000085945022150109047309203188444360062300001128300001501090473092004614443600623000005184502215011148040850318844436001980000000030000150111348267203188444360019800000000300001501113482672)
 (.leaf 3115444360019800000000300001501113482672030774443600198000000893000015011136408890265244436006230000045130000150111348267203131444360019800000000300001501113482672033794443600198000000000000315010920035250313744436001980000000030000150111348267203183444360019800000000300001501113482672031784443600198000000003000015011134826720327744436001980000000030000150111348267203271444360019800000000300001501113482672032484443600198000000003000015011134826720310244436004860000000030000150111374548803249444360019800000000300001501113482672032644443600198000000003000015011134826720320044436001980000000030000150111348267203200444360019800000000300001501113482672))
 (.node 1 (.leaf 3200444360019800000000300001501113482672032004443600198000000003000015011134826720310244436004860000000030000150111376937503624444360062300000023450221001094500412031024443600486000000003000015011134826720233444436006230000017330000150109450041202309444360062300000629300001501095492837010464443600793000014174502210010979191290155944436008700000139645022070109888816701559444360087000001465450221001098782518027814443600486000000003000015010979554380318644436004860000000030000150109795543802661444360048600000700300001001113325568031864443600486000000003000015010984444910239644436006230000021730000150109844449102067444360087000001396450220701099804141)
 (.leaf 3186444360048600000000300001501114058985015594443600870000014354502207010997776290300644436008350000147045022070109995905401643444360090400001417450220701116109376017174443600936000008984502207011005478650303744436004860000000030000150109964778102366444360096400001427450220701116594376000006263600848000008314502207011007065880326544436008700000154745022070110021834001731444360062300000916450221001101117954023664443601001000014654502207011015088640164344436008480000143545022070111612193201643444360084500001417450220701101071715012804443600540000006866001610011157784540332244436008650000145345022070111534499801643444360059200000850450220701101015039)))
 (.node 2 (.node 1 (.leaf 1783444360085300001443450220701116016201026754443600870000014904502207011013792640463344436005490000373355018070111498987701643444360014400000357450220701115857398012174443600870000015104502210011147513790361044436004860000000030000150111435047706340444360068902275069550180801115282478024454443600845000004514502207011015962830512644436008360000141745022070110187989100000000360084800001230450220701102115444036104443600486000000003000015011008466410650144436007092873547855018100111541280302366444360043122040468450220701116289452026624443600623000009784502207011024107490361044436004860000000030000150110108412602948444360048600000000300001501101084126)
 (.leaf 452360084500001396450220701102767130010814443600839000013214502207011022939020008644436005580000040550020070111553568707341444360062300001396450220701102778207029474443600928000009784502207011033900080000044436000060000018145022070110231112001643444360084500000936450220701102429820047834443600845000007834102407011023829820023844436002260000107645022070111597448600000355360084500001443450220701102953480000004443600835000014264752107011157002270284644436004860000000030000150110155666605126444360084500000850450220801102771050047354443600617000011804502207011028610540000045236001920000124545022070110297604300000444360011600000395450220701102840311))
 (.node 1 (.leaf 626360071900001378475210701103165506033704443600486000000003000015011145556310321844436004860000000030000150111348267210592044360082804766257625150801103528830061204443600714000044895251907011151169230164344436000000000034545022070110270464304783444360084500000708430230701114916105000005073600226000011154502207011030017710145744436006230000080462515100110277170802986444360048600000043300001501102025843000004443600349000005164502207011040284740000048736008070000357445022080111509799000000521360114100002654390250801102623574000004944210742000070155751708011163970671059232536010300000626452519080111652394904397444360100900008512475210801103904939)
 (.leaf 444360088200000936450220801115171188033474443600845000013004102407011158991230000049336006170000132062515080110382056000000444360085800001139625150701114732906000004443600689000063575501808011149132220367544436007770000453352519070111596865800000444360084800004518475210701114958960000004443600719000044055251908011045446290000057936000130000021845022070111613589800786444360083500000639450220701114905114000004283601011000028185251909011039991700852344436007140675778957517080111382345005838444360102500006454525190801104621029000004903600004000003454502207011038611300042044436000000000039545022070111597482304142444360000000000451450220701104121141))))
 (.node 4 (.node 2 (.node 1 (.leaf 492360062300001147600160701115917971080034443600689019076235501808011148258561059235736009070000642152519080110457956404397444360071415776480550180801115016029043974443600558000076525751708011152135980042044436006210000870852519080110429570600000444360083200000741450220701104303789000001313600006000005434502207011157236670042044436002260000035341024070110453184100000444360083200002265600160701104466611007344443600623000011406001607011044466290358444436006230000066030000150110318314010592444360089800004368575170801116547793000004443600709000003224502208011044330690000045236000000000103845022070111617726000000533360013400002272525190801115197059)
 (.leaf 3554444360083500002566600160801104875605000006263600623000011966001607011156822670244544436006890000718055018080110528978510592444360055812316356575170801115971318105924443600656000078695751708011049476260076244436007790000047733028070111582210901512444360071900001427450220701105405784043974443600689211466675751701011062847401059244436007140000894967513080111637700510592190360059200007810650140801105920795000004443600845000004024502203011160586590512644436000000000119945022070110572003500000444360080300002983525190801106761951000004443601087000035144102409011047905370439744436006891884655957517010111569813810592444360080700008465450220801116837463))
 (.node 1 (.leaf 444360085800000745625150701114920904000005383600704000007456251507011055414390467744436008450000083541024030110550498200000557360080700004308450220801104934430105920003600835000042646001608011161199021059219536007820000292757517090111455974510592429360071400006227525190801105990363048594443600825115688475501805011069190370323644436008450000231145022030110686153000000444360000300000303450220701105598847071654443600689000086774502208011154982860000044436008350000265560016080110595342310592359360068901515525600160101106243698105924443600719000063585251905011057251160471544436006860000878860016080110612352300000444360084500003389390250301106440550)
 (.leaf 4595444360002400003426600161501115863546013294443600643000007456251507011168764500132944436006430000080270012070111739824902181444360064300000833700120701114862278033924443600024000007324502207011074406050355444436006980000645157517050111655158309501444360002801216577650140501114251404051254443600828000075724752105011074452670323644436008070000433145022030110639087305240444360084500003187450220301106848200000004443600782000052565501801011172250810076244436011300000724539025010111727336203555444360087700007037350270101117629062038264443600024000006154502207011078930561059244436008720000762750020050110811896905125444360084903388931450220701107191471)))
 (.node 2 (.node 1 (.leaf 1404444360060100008887650140801107799202039824443600845000006444502203011071766860000044436000000000047045022070110686315805090444360080700007687450220701117676601014044443600576000064606251509011075360930688044436006893323626155018010111608999310592444360082822157866625150501116102641068134443600799054187814502205011075210020423644436009250000891645022050110802898800000545360081900002820450220301116028720035534443600845000041224502203011165803370495844436008070000760245022100111596595010592313336068900002150550180701108097848105924223600828161377155002005011084252551059216136007820535749545022050111740853604210444360066900008879550180501108321878)
 (.leaf 626360002400002783450220701117206086038294443600026000024175751707011169742001059243736008352463606452519050111610965104646444360000000000882450220301115942474000006263600283000026465751708011164441380512644436011060000875245022050111653850110592444360068900005242600160901107710722105924443600845052387484302305011175118510492444436008070000677145022050111768640704924444360080700006883450220501108395831000004443600000000002294502203011158522111059238436008282340896752519050110861348810592161360082805117833675130501108577804000005364090357000075155002005011089749261059244436008190682851437026050110927372301404444360000000003424450220501117018569))
 (.node 1 (.leaf 8227444360090700007679450220701108650783000004723601141000035534502207011162569600568744436000050000498267513070111702553010592060360002600004298575170701108580695105924123600828066778136001605011089708810892444436008370496828329030140110897533510592417360084523817813310291201108680066000004443600000000002964502203011158014610355544436006980000861445022050111748725410592444360001700006246600160701109102694105922063600807304685484302312011163906260569744436006981816693945022050110912037000420444360084226395979270311401116217729105922923600832011087625251914011094729661059244436006822214851143023120111637526109137444360083211088507330281211116088985)
 (.leaf 4278444360082500003158430230101109198525051254443600643000086264752114011176285430440844436006390302894252519050110944472904138444360063400005093450220901109392062024454443601030000035254102407011164002411059200036006861096844735027121110928839800000459360056709638047450220501117514368000004443600000000051204502210111165551620355444436000010000162545022030110861113700000444360036600006373625150901108994605101314443600836000086253702610111162511460512544436000001342662052519050111722513600420444360062300004462390250101118467778105924443600006000060107001208011095372800960444436007421076886852519050111624698007237444360079900008801450221201109792030)))))))))
 (.node 128 (.node 64 (.node 32 (.node 16 (.node 8 (.node 4 (.node 2 (.node 1 (.leaf 7020444360115900008967450220501109184477105921333600846078389636251501011099939361059207036006890783895162515120111792237805125444360083212047753290301201117627517030964443600634000071354502205011088041180140444436010970000779645022080111722629500000473360094300006214600160901110227296105923473600825010589386001605011099877980569744436007821730766129030120110993320602445444360089004427757450220801117473677051254443600689000066546251501011176090831056844436006133652902347521140110948949610592105360074230488801450221201116267528105920983880819272589135251901011164249371059213636007040104896557517140111646757010592000360082524367153370261011109641728)
 (.leaf 581449000000003574450221011109108826050874443600116075733144102410011090098820512544436008720000799050020010111772895110592444360068900007665625150801109934247105921983600779350076294752112011105335031059216736006561286688445022121110952457905872444360083200008911550181011110386687096044443600835000089574502212011181186470359944436011220000764352519080111001951010592091360076626038383450221201117763915088374443600837043287484302310111100493651059244436005671776204941024051110938286710592000360071914788383450221201109683323055374443600686000087594752110111096496560000044436007900737426645022101110992975505087444360019205904843410241001117041833))
 (.node 1 (.leaf 1218444360083700004996450221401117727751000005863600803000031145251901011173500620000058636004000000335055018010111747947404583444360083500008801450221011110254324094704443600689220686144502212011156588670512544436008420100792241024101110961949610592446360077100008988525191201110749961046234443600000000046494502210111099731170355444436011250000676462515140111548268810592444360079334088334475210501116285220105924193600790009847155251905011163602711059200036007042970852845022120111731785609154444360064300008836450221011115781922094404443600714000088364502210111161535690548844436000000000440845022101111063736300000444360096900974699500200101115977019)
 (.leaf 10592445360080700008801450221011110517099059524443600592276059546501405011106520691059218236008243788673745022120111814654809148444360083500008407330281011110563927054884443600592000062584502210111177054840791044436008420000874541024101111584735210592444360083500968528450221001111286749039814443600689000066524502205011090296611059244436007900000883645022120111756256805611444360066402328865575171011110509792056914443600634000054234502210111153056430569144436007990000800057517101111042751407910444360083500005300450221011110137264061904443600845041086463902512111180080061059226236008880095581233028120111629653610592328360081935778567390251201116059104)))
 (.node 2 (.node 1 (.leaf 7224444360058500008597390251011115688186051254443600689000057176251505011180796310875644436007792861881845022121111496548609907444360051708329006650141011110932866080594443600232000076304502210111103565441059200036007990000848845022101111055319310455444360071402288451330281011115313660051254443600846107085684102414011160872520684844436006690937711645022050111578854810592444360079006808539475211201111441090105924443600664415579076251514011161586201059244436006890000676255018040111792591109305444360064302258929500201201115421893096044443600807052987634502212011124505140977344436006270225900747521101111841009610592444360071400008356290301011116016829)
 (.leaf 8877444360034100008968500201011118293179102934443600634136788253902512011113948300943744436004003172815243023040111816977106190444360087206568538390251211111146721105922383600605103882624102412011162018190984644436004310000876139025071111137332406939444360089020009007475211211111506075091484443600782300586333902510111177753680805944436002830376879857517101111080170710592168360083503708872450221201118045825105922713600835000089765501812111180737111059233836007141426617345022101111173774110592000360078200008906650141001111315190105920883600837131385734502210111116488641059244436004000000824129030161111514478910592435360000900002407450221001111316804))
 (.node 1 (.leaf 8064444360013400008317450221611111678781105923813600341000058844752108011119239950806444436002320629810731029161111584642108502444360087100008526410240811115970077105923523600605099185734502210111120536770845544436008070000720243023161111215090510592244360001600003811450221201117013273105920003600232087186133702607111161695510806444436007710000905170012161111223797308064444360093300008607410241611112414848068444443600549000045774502205011129622011059201936008360000749645022101111826871710592000360083502128781450221201111791401105921573600779000068344752109011118343730806444436007710000847270012161111196235310592444360085825657602450220401118974727)
 (.leaf 9199444360074236898988500201401115580489099144443600664061351184102410111157736771059235236000600000654337026121111181500410592444360077100008920700121611112995837000004443600896061387804102412111127160031059200010608351172757445022100111785476510592158360023200005455430231211116157061105924023600686000059503302810111118949530806444436002320000814327031161111224443408064444360071900008870475211611118791356082574443600686258989674502212111159802491059234036007792188763045022120111865303800000499360059202083900410241001115636923080644443600558000090025751716111159231730000044436008900077876341024121111785792710592000360077907238911550181011112931065))))
 (.node 4 (.node 2 (.node 1 (.leaf 10377444360085637808709390250711118109272090484443600714000057103102907111156861240637244436005850000790231029161111276530900000444360087002068939430231211112941237086514443600897216181473502712111158980770698344436001340000257543023101111825886210592000360083503257734600161001112334823105926123600845225486144502210111125710911059222136002730000866545022161111851011810592395360052839668119450221201113092607087874443600601000085283502716111154973071037744436002830000841643023071111598667510592000360083512167574450221001118409912000004443600664317485013902512111130779280681444436000000000259745022100111845548106814444360082412167454410241201115798920)
 (.leaf 10592000360022600008614450220711113123225000004443600055000040804502216011181109270661144436000040000696645022100111859981000000444360087108048763410241201113466554105920003600221031760015251907111128683971059200036007711680711645022100112015952810592444360022100009015600161611116849061042694443600000000042574502208011137077300569744436008782302859739025120111302571510592481360042319317174450220711118566468105924443600790167323103102908011163519721059244436001700000897645022161111940903510592444360029300009012450221611116140724098094443600540000084994752116111154989461059211136007090433874239025121111894351210592444360001900008204700121611116571872))
 (.node 1 (.leaf 10492444360055803128665450220711113584940105921113600307000088464102412111161688121059200536008360311689237026101111916517409809444360006000008798575171611113868113105921113600846054228053702605011137727211049244436007420000866639025161111596882102615444360000000004845450221001113280980038174443600000000036564502210011182044090119944436008280428796741024120111755269110492444360006900008656525191611119005964099194443600528000083174502216111159238190772844436004670188904260016020111561646910592444360071400008743500201611115971719039434443600116000031714502210111185174730119944436006430000244141024050111546149509149444360033400006426450221611115872555)
 (.leaf 10592444360036600008977525191611119622710046794443600072000031104502210011133241991059244436003410000889945022161111651341010592444360001900009020625151611114663363042694443600719000058353502705011147188410244544436007041630804631029120111429080302216444360078200005929350270801116024479079064443600366000085734502207111141804491033044436003660000871045022161111570434710431444360022100006854500201611114832316042694443600682052877353102912011159842961059244436002320000899345022161111615870010577444360010000008468600161611118909162105924443600048000086945002016111140636271059221836007712546899345022121111976828710592218360081906398976450221211119303250)))
 (.node 2 (.node 1 (.leaf 10431444360002100008320650141611119153180105922183600824094876604502212111154004071059221836008241677900045022120111499617710592444360001100006652450221611119391585105922183600824084389674502212011191087901059244436000270000805355018161111605533010592218360077700008986450221201115985348105924443600215000090086001616111190431540422444436006860000432933028080111606176610592444360036600008993450221611116186039105924443600048000089936001616111165764371059244436000480000889162515161111527305110592444360098000008602370261611114760208056974443600790000078854102402011163089650000055936008970000657941024020111486216210592444360018300009044600161611119513458)
 (.leaf 10592128360087114997068310291201115240547042244443600623000070703702612011151062481059244436003490000902450020161111522051610592444360036600007495450221611115825347053764443600634000062524752102011200778150991444436009390000274652519081111887535010592030339079300006788290301201115151094053764443600686000034214102402011192170351059244436001700000589357517161111959592510592027300062100006835410241201115148986105921173600283028286496001612011152751551016644436003660000796860016161111715543010592444360020700009041575171611115882717105824443600226000083875501816111158206911059244436002320000905167513161111590027808231444360079300009028500201401114332145))
 (.node 1 (.leaf 10592444360063900009028500201611115055971105924443600019000090527001216111158955911059244436007710000904770012161111821834210592000360086700386056270311211115141181062264443600803000049213902508111155394641059244436000190000905270012161111874994010592444360001900009052700121611120735939105924443600019000090506751316111164481061059244436004420000889065014161111582226810592444360066400008949675131611115963446105920003600008000085845501816111159918170899744436006170000623445022161111604667210592444360001900009052700121611116052317105920003600870089252242903012111152710230943344436001980000718152519161111913668710592444360020700008831550181611116282153)
 (.leaf 10592000129080708898728410241201116079308105920963600517000079674102410111154084361013744436003660000874350020141111893345810592000211063400007358450221411115901704105921353600828000075695251914111155518870960444436009110000898645022101111566362910592118360010008828595575171411115444599105926250140215037290316251510111196541151059213736001440000904562515141111526550210592611360004800009044600161411116006167096494443600016000048223702616111162398051059262603108280000845133028091111599794210592444360061721958987475211211115933373105921663600585000074214302309011158023011059205336006050000844457517090111599722206814444360070400008559370261411115624293)))))
 (.node 8 (.node 4 (.node 2 (.node 1 (.leaf 10592000360054001435901500200901115597301081704443600186000084484752114111196138461059210836007820000868537026101111573729710592108360087000008514370260911115997484105925663600682000089314502209011159668041059259236006890000884641024091111595917510592000360077900008529330280911120006223035544443600888000086703702609011200152471059244436002320000809845022161111600133510592444360023200008596430230711116111696096044443600621000032273502702011195678830960444436006010000692933028020111630782710592000360051700007630450221401115534999035544443600601000088314102410011157831250597044436006430000731739025020111606569407437444360059200008582330281401115953454)
 (.leaf 10592000100068900127574450221401115706503105920003600431000082414502207111155820741059244436006270000789352519140111579934808348444360068600008220330281011116844635105920003600431133872653902502011163165861059200036007040000817445022071111600761610592261360051700007417450220201119472829105920003600467000070233102902011157959971059200036004860000849055018071111939785803554444360057600008528350270201120402969035544443600486000071223502702011162899330879344436004860000732241024020112000710006815444360050500007975410240211116253448047204443600467000074643302802011155109950960444436003570000695135027080111543570400420444360048600007988475210201115782381))
 (.node 1 (.leaf 4720444360086200008976450220201115894571024454443600486000078724752102011159973921059244436004310000859643023071111585705810592000360059200007417450220201116108202047204443600742000088994502202011159923920069744436004860000844245022020111582887905533444360071400008920410240201115198249097944443600742102890124502202011161801581036944436005760000883141024101111626786100000444360054000008981430230201119607070000004443600682000090174502202011162945840623344436008350000898645022020111566551600000444360071400009012450220201120207741047204443600486000090486751302011154571430569744436008450000887143023020112016535310592000230028300008613370260901115857079)
 (.leaf 10592444360019200007772600160801115717351105924443600148000089376251508011192363790322444436005920000856635027020111731783010592444360046700006808310290201115887980105924443600413000088695002008011154322441059244436004860000760567513020111553888404720444360055801328276430230801115224738105920733600400000071693702602111192486760000047536005670000541637026101111541679800000562360062100008831410240201120085210068154443600486000089874752102011172716541059260336000601201815360016090111958365010592189360050500007617650140801115394455002384443600486000086403702602011169770280569744436004860000821543023020111925882410592444360017600007199550180801115764011)))
 (.node 2 (.node 1 (.leaf 10592073360046711187106350270801115711521105920523600617000069275251908011157379440462244436005850000876139025020111612701704024444360048600008898475210201116509265024454443600486000078783702602011199149990874644436002260000752552519081111556374910592189360046700007944575170801115160237061904443600467000069643102902011159171701059200028106430000743847521090111590104608792444360062700008853450220201115689273000004443600803000082523702602011159787021059239836004670000737939025090111923986409669444360020700007461500200901115704607092344443600825000088314102402011161673060355444436007660000884641024020111688660210592073360070400008140450220801115465250)
 (.leaf 10592008360070400007677410240201115965399105922453600540000085393502710011162251391059259736005400000860435027090111628586810592081360034100008573450220811115795742098164443600450000087423902514111160068421059203836006820000890762515080111613807310592000360023200007244350270801119090029094924443600592000090497001202011161779111059208136005760000848741024091111578111210592610360036600007240370260901115916765105920003600283000086676251509111160220701020644436006640000894445022080111949099310592464360040000008708525190911115777825105921403600682000088955251909111157458681059244436001440000898852519091111563806708200444360087700005564450220711115203762))
 (.node 1 (.leaf 7439444360061300009022575170401116447792105920123600334000088945501809111196190590681444436007420162889945022080111985515510592337360046700008378330281401118858889105924443600669000087273702610111159202271059244436000640000807660016071111497163310592444360059200009051700120711115153037105921713590698099875234502209111153486581059233736004670000688429030120111549450110592444360014400009025525190711115885311105923373600384000089665501814011142876871059244436005050000901965014091111495847308479444360002100008894550180911114530612105924443600709000064584502207111159360611059244436007140000746237026101111577897106793444360057600008899450220411116112283)
 (.leaf 10592526360082427507435390251401115717803105924443600714000090234752107111159526151059244436003340000894155018091111590936710592444360002100006683575170711115132249105920003600467050988534502210011141114191059241636007140000540845022091111867568310592444360028300007912525190711115967273105924443600021000090415751707111185144951059230835506230727605443023081111562307408863444360071400008488450220811118866782092354443600576000088834302304111158436181059244436005920000867037026080111903408410592000360057600007872525190711119098312105924443600714000088403902507111157906600396544436006010000685829030020111535749310592094360033400008866550180711116279390))))
 (.node 4 (.node 2 (.node 1 (.leaf 10592094360033400008866550180711116564716105924443600601000090527001207111193434911059200036005400000892643023071111421605710592626360058500008695390250411115976240105924443600623000087423902509011193435381059209436003340000884755018071111423016110592444360060100009051675131611116269683105924443600621000090476251516111164017700619044436008030417534531029140111495325710592000141071400004421475211611119165762105922163600207000076176501412111137272881059200036001760000641757517071111450796010592000360066400008981430230711115021918105920003600828000083583302810011158560161059244436001340000799255018071111603037010592444360054000009028500200711114383193)
 (.leaf 10592444360061700008920410240711118801255097014443600664000090004502210011159605411059244436001340000674755018071111823927010592444360014400009034550180711115971169105924443600442000090146251507111140918561059200036004670000900147521071111425403810592000360062100006457475210711113723500105920003600714000086283502710111145351601059244436007140000900645022071111599271709115444360001900009048650141001113931372105924443600558412489736251508111160692281059210136005490000885247521071111597421510592000018071400008744370260711116116180085904443600689044189135251912111139782791030044436009410201872539025120111351792009883444360083700008976450221201116024084))
 (.node 1 (.leaf 10592444360078222548541330281201112387580105921013600413000087124302307111124870061059225136005582705855339025071111244873709991444360034100008262410240711111245701084884443600307000084624302307111111899230992344436007710000841643023071111558568809497444360034100008636410241011115256793033094443600157000079863000205011188861440129644436006230000061730000150108744670802290444360062300001009300001501089465469003334443600623000007744502215010918220650318944436006230000082945022150109047309203188444360062300001083300001501090473092031154443600198000000873000015011133255680307744436006230000037930000150109047309202652444360062300000805300001501113325568)
 (.leaf 3131444360019800000000300001501113482672033794443600198000000000000315010920035250313744436001980000000030000150111348267203183444360019800000000300001501113482672031784443600198000000003000015011134826720327744436001980000000030000150111348267203271444360019800000000300001501113482672032484443600198000000003000015011134826720324944436001980000000030000150111348267203264444360019800000000300001501113482672032004443600198000000003000015011134826720320044436001980000000030000150111348267203200444360019800000000300001501113482672032004443600198000000003000015011134826720310244436003570000000030000150111374548803102444360048600000000300001501094002766)))
 (.node 2 (.node 1 (.leaf 3624444360062300000025450221001113325568023344443600623000003273000015011133255680230944436004860000005530000150109549283701046444360084200001427450221001115303077015594443600742000013794502207010985929110155944436008700000103745022100109838828702781444360048600000000300001501097955438031864443600486000000003000015010979554380239644436006230000051030000150111405898502067444360087000001417450220701099691892015594443601001000014274502207011157153370300644436008700000213745022070111505968401717444360092300000886450220701116249755030374443600486000000003000015010996477810326544436008700000154745022100111417794801731444360062300000831450221001101338787)
 (.leaf 2366444360101300001417450220701101744819023664443601006000014534502207011012826050164344436008720000144345022070110123671901783444360087000001510450220701101385025016434443600935000006294502207011012180870164344436006860000077445022070110121389702675444360087000001501450220701101179577012804443600623000011326251510011149716410236644436008450000150145022070111526317402445444360084500000529450220701101522280000000003600848000012304502207011023404720361044436004860000000030000150111439019703610444360048600000000300001501100846641026624443600623000013794502207011024886810361044436004860000000030000150110108412602948444360048600000121300001501101084126))
 (.node 1 (.leaf 238444360022600001180450220701102297115000004523600845000014354502207011026705320108144436010170000146545022070110273015207341444360062300000936450220701102651510029474443600972000010374502207011031162130000044436000050000024445022070111558770701643444360084500000874390250701115208759047834443600845000008244302307011026217910000035536008450000147945022070111575430400086444360002400000251550180701102842105028464443600623000000283000015011015566660478344436008450000074145022070110292304705126444360084500000741450220801102782501000004443600656000012454502207011031489350000045236002730000126145022070111621720000000444360023200000402450220701102916548)
 (.leaf 626360076600000459475210801116141445000004443600807000008054502208011031595721059204434908420000629457517080111574148001643444360000000000402450220701103059434000005073600400000011804502207011032537940145744436006230000117262515100110310446202986444360062300000289300001001114555631033704443600486000000003000015011020258430321844436004860000012130000150111348267210592325360094604555777525190801115847119000004443600837000006084502207011039294030000052136011410000273339025080110236222600000444360085800001164625150701115906480105924443601014000073555002008011041542850367544436006210000441855018070111558334910592444360084800004457475210701116248454))))))
 (.node 16 (.node 8 (.node 4 (.node 2 (.node 1 (.leaf 579360000600000345450220701103886317000004874110807000038604502207011039071450000049336006170000086462515080110390697806840444360068906925794550180801115787250000004443600714000044185501808011157084030334744436008450000130839025080110379942600000453360085800002888625150901115353821000004923600623000011776001607011038219580583844436009820000648152519080110487825300000490401000700000383450220701115983923041424443600000000004684502207011042269080000057936000030000054345022070110439583207028444360071400006481525190501115139836004204443600585000071344752101011043035461059244436008780000440357517080111582906200420444360000000000383450220801104288883)
 (.leaf 1815444360084500000831450220701104346981000004523600001019005014502207011154188410042044436005760000050639025070110505502300000533360080700001782450220801104654620000004443600766000039345251908011044438510073444436006230000117360016070110416545103584444360062300002978300001001103183140056974443600558000076825751701011049931750000044436007660000032245022080111485734003554444360083500002471600160801104581059024454443600689213176235501808011154062281059244436007140000894967513080110476152300000444360074200000357450220801104605054015124443600605000014434502207011166070420000062636007420000079662515070111585844805613444360068906286667575170101115795003))
 (.node 1 (.leaf 10592190360066900007785625150801105693685051264443600157000012544302307011054735900076244436006890000152845022070111659575200000444360083600003284500200801105248841000004443600634000029835251909011158068950000044436008580000073862515070110514277010592000360083500002354600160801105278488000005383600643000007386251507011054668660467744436008450000046739025030111470733700000557360080700004270450220701105252900105924293600714000073705501808011065409150485944436007790000890960016050110700243303236444360084500002389450220301106744541000004443600001000007074502207011161595180000044436008350000229460016080110616556610592195360068900002928550180901116192297)
 (.leaf 10592359360068927996610600160101114741658105924443600782000076565251905011163482200471544436008360000881052519030110727212100000444360084500002776390250301116264883035544443600777095765835751705011150023720459544436000190000889065014100111518860403555444360084500005514330280901107451446013294443600643000007306251507011073692980339244436000240000076145022100111490492405125444360077107527202430230501116099378032364443600807000042824502203011069669910524044436008450000330045022030111559580703826444360002400000699450220701116004082105924443600848092876575002005011173935730512544436008490000893145022080110750501201404444360068600008901600160801117351288)))
 (.node 2 (.node 1 (.leaf 545429084500003352450220301107471267046574443600845000006804502203011072577790000044436000000000036745022070110701863700000444360055800004398525190101107820370014044443600621000051226251510011074795200681344436008350000885345022050111653317804236444360080700008899450220501117423944050904443600807000076604502210011163133830001044436006890000115855018070110815424200000626481002400001995450220701107758668038294443600024000027394502207011153406081059242236008280000776555018050111666481904210444360068900008913525190501108311608035534443600400011820204502203011077337061059216136007710000773952519050110844658310592444360068900005242600160901115989671)
 (.leaf 5881444360074238135503575170101108142096000004443600000000004014502203011079079450464644436000000000229045022030110836476200000626360050500002343575171001116123923105924443600825087584043502705011085934620492444436008070000693945022050110840395610592384360082831738994575170501117361997105921613600828069378346501405011087780550140444436000003400451645022050111683750300000444360043100008283500200501108837989000004723771141000035804502207011086123741059200036007991151855937026140111796095900000444360000300000199450220301117236468082274443600982011387814502207011160173581059206036000260000493057517070111724223610592412360082808397739525190501108861817))
 (.node 1 (.leaf 10592161360069829068614450221201116402022089244443600837011282832903014011089009960042044436007140112699745022050110871079210592417360083916337919330281401117445023105924443600020000061536251507011094316561059244436007773998757247521140111754523405697444360068901116939450221401116500121035554443600664000086354302314011090817530074444436008450000321633028070110930857210592292360084532318816475211401117436090000004443600807159863824502205011094401010427844436006890000227555018100110896374804408444360093400008995500200501116065380041384443600766000051204502208011094206971059262636007770813854637026121111640330703554444360000600001524450220301108681011)
 (.leaf 5125444360068600008710450221201109235056000004443600643000062816001609011089472150000044436000000000628545022101111683744710592444360011600005981675130901109753562051254443600627000076244752105011093548740042044436006390000463641024010111632599007020444360115900007871450220501109106696014044443601141000065844502207011159897721059213336008482004899165014050111002127309604444360074218328897500201201116150289030964443600709000071354502205011089624400000047336011410000751050020090111016448710592105360079338268837430231201116386921105921333600689264888945501812011163698771059207036007774081897460016140111011591910592347360077700008964600161401109746974))))
 (.node 4 (.node 2 (.node 1 (.leaf 5697444360059231678090290301201109606337105684443600885385490295251912011097576651059200036007991296715337026101110972996800000444360000417154174450221011109259115050874443600148000036434102410011091147530244544436009930000775133028140110959266305125444360068900007928625150801110090906105924443600689000075816251508011099960411059219836007823686771747521120111063232310592167360074200006901410241211109415613058724443600835000088014502210111103628640359944436011590000761450020080111746451708837444360083707438836450221011110040425105924443600837169435904502210111157271280508744436003660432455539025100110960808110592609360077100008872450221201118037434)
 (.leaf 10592091360070431918528450221201117582102105920003600742126387104502212011157343140553744436005920000891745022101111468237500000444360054902685085450221001115953254045834443600835000085284502210111164536020512544436008580000814441024101110981644705125444360085618395864450221401116323561000005863600836072524635501801011099883131059244635407420000888545022120111809174403554444360100000006564500200501115396049105924443600766380888724502212011162522230462344436000010000474745022101110992641900000444360097500003114525190101110260305054884443600100000047284502210111176331940791044436008420000865441024101111560216310592445360082402338763450221011110513068))
 (.node 1 (.leaf 5952444360042308495751675130501110650641105924193600845084979534752114011106034481059200036006983127699745022120111065968509440444360071400008872450221011110389367091484443600819000055323302810111159912090569144436008370000567439025101110971210410592444360083200008665450221001110906968084394443600878097859143502712011181348581059218236008422621642645022120111818751505611444360077100008803430231011110335138056914443600719000083676751310111178142990791044436008350000530045022101111019204710592444360083225198712430231201110367388061904443600845351487423902512111160952591059218036007902362887641024120111615109909907444360068600948968500201011115862844)
 (.leaf 8059444360023200007687450221011110305696051254443600027000077314502205011105049281059200036007990398843845022101111053359504965444360068900005140625150501111459964105924443600689000067646001605011110573721059244436007710000881845022120111116726808877444360062700008899450221611115859940068484443600689276755644502205011156502650960444436008191169887143023120111663401809437444360080734848725390251201111058063105924443600704419575945501812011114006501029344436005920000884039025120111603177509773444360091100008890410241011116020539061904443600862000085383902512111179349620984644436006270000902160016101111759176509148444360059203808479330281011111024362)))
 (.node 2 (.node 1 (.leaf 10592238360074212528764430231201115733622069394443600969051890134752112111158070140805944436007190000881845022101111080669310592271360083519338958475211211111704698105923383600704132560104502210111118646591059200036008360086874350020100111138966310592088360083700008665450221001112119473105924353600011008435444502210011113444270806444436003660000548841024161111174411410592381360019200003952450220811111829558105923523600605212484083902512111186283980806444436002320215823527031121111824996508455444360082400008992625151611115841754080644443600771000090477001216111122228310806444436008390000866545022161111228446310592244360015700004662450221201113320985)
 (.leaf 6844444360061322275054430231201116047958105920003600835118488184502212011179666211059215736004770212673745022090111250559009914444360041303367299430231011117915308105920003600257163689906751307111122225160806444436007710000813070012161111170138010592019287082400006966450221011115949994105923523600605007972713902512111178668011059244436007710000901170012161111895936808064444360082500008532550181611112828871000004443600898073387454102412111123926671059244436008580730673745022040111653093010592000360062300006653350271011118045769080644443600669033390076251516111161326990806444436006210000893762515161111589455810592158360028300005381430231211112553473))
 (.node 1 (.leaf 10377444360081900008993600160711118177622105920003600714033089655751712111131591350000049936000190000316445022100111240707706983444360084910518274350271201116019678063724443600779000079032503216111160230030000044436008822609871141024121111594961010592000360083504467817550181201118140814105926120060845171786144502210111181981111037744436002210000761345022071111602735410592395360060113038119450221401112997284105922213600198057088004752116111159994690681444436008530441859643023120111302238400000444360022100004096475211611112854898105920003600334000048274502210111155754441059200036007820688735845022100111375772306814444360000000001897450221001113053694)
 (.leaf 444360087113818930475211201113521846105920003600221000060015251907111183056811059244436000270000902870012161111585612706611444360011300007934450221001116232790105924443600366000090184752116111192842560426944436000000196482745022120111877467705697444360087030067885410241201113293709105920003600790067280083502710011191122281059244436000190000903370012161111639372310592481360023200007550450220711118393997105924443600517043123104502205011190834231049244436006690000872841024161111849815809809444360023200008584550181611113195083105921113600400000087423902512111189797151059211136007140000681850020120111402473310592005360082407737644310291001119323167)))))
 (.node 8 (.node 4 (.node 2 (.node 1 (.leaf 10492444360022600008588475211611118804185000004443600000000024234502210011182775840381744436000000000381145022050111358745201199444360083900008049410241201116785629046794443600072000029444502210111133208240394344436002470000355045022100111570880801199444360010400002596450220501113418054091494443600247000068134502216111140345281059244436002210000891645022161111687938710592444360001900009031625151611114109175022164443600766000054793502708011159645700426944436006980186608833028050111462147702445444360087000008306310291201115728505105924443600257000090255251916111195655090426944436007902488690831029120111593069207906444360022111448885450220711115420781)
 (.leaf 10431444360018600007066550181611115212217105924443600136000090265501816111143158291057744436002830000883252519161111890232110431444360002700007943700121611114540861105924443600621000088524752116111154232011059221836008240000889945022121111557437710592218360082401818986450221211119605165105922183600824041390004502212011195117541059244436000000000669745022161111928297310592444360021500008040475211611115598778042244443600704000046153302808011149925331059244436000210000812670012161111590207210592444360036600009000450221611116008243105924443600019000090447001216111160393981059244436001360000891057517161111510162210592444360088800008944450221611115286285))
 (.node 1 (.leaf 559360084900008487410240201114928792056974443600682000077864102402011152093551059244436002320000903660016161111571945810592128360084400007014290301201114704788042244443600540000059003302814011162151891059244436003340000903455018161111601455209914444360084209163809430230811115549209105924443600366000078444502216111195324621059244436007931089858435027120111599972710592444360052800006254525190801119267458101854443600307004289755751712011154826440537644436006860000586545022020111661166110592444360022100008846575171611115615441105924443600771000079617001216111145134401059244436006690000899770012161111588270410592444360023200009051675131611115873506)
 (.leaf 10592000206084500006675290301201114976252062264443600865000036564502208111159813021059244436000190000905270012161111533683810592444360001700009050675131611116779880105924443600477000086966751316111154136961059244436000190000905270012161111682040610592444360066400008949675131611119571385105926263600283000086496001616111194569891059244436000210000905167513161111597618809433444360019800006203500201611115608092105920003600870000051372903012111154065571059244436005490000873957517101111588118808567444360083700008994475211201115735610105920003600825015268844502214111159188511059209636006210000845839025101111539664510137444360051700008641500200911115106257)))
 (.node 2 (.node 1 (.leaf 10592135360090701498816475211011115998993096044443600896000078894502210111157573201059211836001360000899965014141111578807010592056360005500009041575171411115977687094604443600844000084613502710111157934951059213736006860000899550020141111574167209649444360028300008192410241611116399000105925183600782047388144102414111161347941059244436005921214902347521120111605285906814444360043102578745410241411115883840105920003600842000070504302309011158769561059216636006170000742143023090111569931410592053397059200208467550180901115733886105921083600846000085463702609111195557301059210836008490000868537026091111952394308170444360046700008611525191411119551856)
 (.leaf 10592566042069800008559370260901119700190105926260110793000085843502709111158920200960444436006430000837833028140111968122903554444360089800008670370260901116473759105924443600221000089444502207111159739020960444436006390000686533028140111614170705970444360069800008926430230201116282205035544443600585000088644102410011161567151059200015406340013765847521020111561759010592000360055800008098450220711115702795073784443600384000089665501802011155221890834844436005280000829539025141111647166810592444360066901318030525191401115174278105920003600450013069813302802011160891711059200036007770000829243023071111584164303554444360056700008461350270201116455812))
 (.node 1 (.leaf 10592261360046700007791550180201115912180105920003600467000070403102902011158118860355444436004860000710635027020111631357009604444360066400008864410240201116460688068154443600477000084315002002011161541830472044436004670000787935027020111572901309604444360022600007498430231411115726723024454443600517000080525251902011158943451059244436004000000868443023101111585009510592000267059200007417450220201116248769047204443600835000089164502202011160018960069744436004860000896847521020111950394500000444360068900008962430230201116259954103694443600549000089444502214111206586740000044436004860000902347521020111592654304720444360048600009034675130201115294388)
 (.leaf 5697444360083600008825390250201116429390093694443600334000086533702609011158379081059244436002260000849565014140111926931503224444360097700008780410240201117803395105924443600467000068513102902011196081661059244436004670000881647521020111547123210592444360048600008990675130201115486827047204443600558013289314502208011186324620000047536002320000639339025090111571970900000562360061700008871430230201120576971105920733600183000078204502208011158425241059208036000210248799957517090111955640000238444360048600009001475210201117014278056974443600486000083964752102011160352581059244436001920000835450020020111604360910592189360048600007783650140801115491596))))
 (.node 4 (.node 2 (.node 1 (.leaf 10592052338068900008412500200901115728618046224443600639000085233702602011166134840402444436004860000896847521020111685448610592189360046700007613450220801115606798061904443600467000068723102902011193746880000044436004130000792743023020111571030408746444360022600006815550180801115573625087924443600605000088844752102011192031541059200336004670000801943023090111590320200000444360074200007455350270201116099975096694443600186000070915002009011193950130923444436007930000886441024020111996981203554444360082500008799410240201120683931105920733600467000075644752108011152840861020644436006860000725937026020111585920310592245360054000008653370261001116019145)
 (.leaf 10592597360054000008564330280901116356051105920813600442000084164302309011193805511059261836008070000887662515090111605483410592626360030700006276370260811115919852105920813600656000083583302809111158061291059261036002930000742041024090111932095410206444360057600008783430230801119696060105923973190257000079765002009111159629731059200036002730000887662515091111964926210592140360048600008927550180911115983183082004443600714000057244502207111153009320743944436006170000900860016090111647466610592444360069800008744370260711116697852068144443600714000089934502208011162960401059233736004670000842533028090111874434310592444360054000008184700120711114689264))
 (.node 1 (.leaf 10592444360059200009044700120711114791979096414443600669000075504502209111158720061059233736004670166707933028140111460985910592337360002713308942525191401114474186105924443600400000079745751709111192647671059244436007140000609341024071111579434708479444360003200008995550180911114286588105924443600334000090305501809111160870301059244436007140000758339025071111897850206793444360057600008967450220411119515997105924163600232000052514502209111147478481059244436001340000676255018071111503478510592444360002100009041575170711114306110092624443600605250973325002008111158127770923544436007790000887955018041111971524110592000360030700008955550180711114925685)
 (.leaf 10592444360059200008670370260901114704917105924443600742000089814302307111145299541059200036006430000868537026101111578653110592094360033400008671550180711115046231105924443600592000090527001207111158516631059209436003340000883155018071111449059010592000360057600008727370261011116131190105924443600592000090527001216111158408630619044436006861311551031029020111626076610592216360019801846383650141211113562541105920001210639000087896501407111156847721059200036005580000901245022071111631719410592444360071400009018475210711114168459105924443600704000090165501807111142098721059244436004130000901950020071111604068510592000360047700009014500200711116068588)))
 (.node 2 (.node 1 (.leaf 9701444360077100009038575171001118418455105920003600714000061944752107111159162191059244436002070000656450020071111571201710592444360062100009023475210711114252313105920003600714000073523502707111192765790911544436008240655762141024120111573875310592444360071400008988500200711115306503105921013600467000089304752107111160162400496344436007140000892041024071111371449004963444360070904419008500201211113748433103004443600837092389864502212011162243721059244436007820000846633028120111270915610592101360027300008763450220711115931219105922513600341127085964302307111182734470999144436002320000843845022071111614571408488444360032200008748430230711118237870)
 (.leaf 3981444360018300006697300020501108963063033094443600157000079863000202111143894200129644436006230000054030000150108744670802290444360062300000978300001501089465469003334443600623000009164502215011161340610318944436006230000021345022150109047309203188444360062300000700300001501090473092031314443600198000002353000015011133255680307744436001980000018930000150111332556803137444360019800000000300001501113482672031834443600198000000003000015011134826720317844436001980000000030000150111348267203379444360019800000000000031501092003525032774443600198000000003000015011134826720327144436001980000000030000150111348267203248444360019800000000300001501113482672))
 (.node 1 (.leaf 3249444360019800000000300001501113482672032644443600198000000003000015011134826720320044436001980000000030000150111348267203200444360019800000000300001501113482672032004443600198000000003000015011134826720320044436001980000000030000150109300480203102444360019800000000300001501093004802031024443600486000000003000015011134826720230944436006230000034230000150111332556801046444360062300001501450221001113701876015594443600450000013394502207010982383200155944436008700000099245022070109843035102781444360048600000079300001501113325568031864443600486000000003000015010979554380155944436008480000077445022070109997976702067444360087000001396450220701099699890)
 (.leaf 2396444360062300000041300001501113325568017174443600932000014174502207011006830970303744436004860000000030000150109964778101731444360062300000867450221001115736306023664443600996000014354502207011013631360178344436008700000150145022070110130211401643444360102100000622450220701101542282026754443600865000015014502207011008171820236644436008450000142745022070110170808002445444360084500000516450220701115219851000000003600848000012454502207011023472550361044436004860000000030000150111348267202662444360062300001417450220701116111912036104443600486000000003000015011010841260294844436004860000019030000150110108412601643444360084500000989430230701103170539)))))))
 (.node 32 (.node 16 (.node 8 (.node 4 (.node 2 (.node 1 (.leaf 238444360047700001149450220701102510428000004523600845000014274502207011026495350000035536008450000151045022070110271314501081444360109600001528450220701102856975073414443600623000009524502207011025378070478344436008450000078341024070110277556600000452360084500001465450220701102980889000864443600024000008755501807011030717950284644436006230000048130000070110155666600000444360000400000357450220701102615712047834443600845000005643902507011029145390512644436008450000074145022080110283490000000444360084513871230450220701115554917000004443600024000003674502207011028387010000044436008070000104145022080110291620902986444360062300000658300001001101791684)
 (.leaf 1643444360022600000831450220701103270341000005074130742000013544502207011155763540000062649608070000314145022070110385857900000444360079000001087625150701103255807014574443600623000011726251507011031426570337044436004860000000030000150111348267200000587360070900005878550180801115113738105924443600849000020374752107011153232140000044436007040000054345022070111624941303218444360048600001225300001501113325568105923253600972148962275251908011035501591059244436010442516750947521080110391296100000579360000000000383450220701116244814000005603600807000023694502208011040023750000049336006170000073062515070111631309600000521360085800002937625150901103743287))
 (.node 1 (.leaf 3347444360084500001272390250301115079913000004924040623000011736001607011041462100583844436008390000641955018080111541943510592444360069800004494600160701104588145041424443600000000004514502207011152100760000045236000060434039545022070110412881900000579360000400000481450220701116102324004204443600585000073325002001011044829500042044436001830000035745022070110408950100420444360004800000383450220801104142865018154443600845000008504502207011047011570042044436008420000446043023070110523492500000533360080700003675450220801104464871007344443600623000011776001607011040275360358444436006230000381830000070111332556805697444360055800007652575170801105130966)
 (.leaf 1512444360087000001501450220701116403419035544443600835000027755751708011160410141059244436008440000889065014080110494323810592190360063900007783650140501106371426051264443600431000013304302307011051822800000044436008360000235750020080110507497600000000498085800002419625150701105131331000004443600853000007556251507011158927510561344436006893598685560016050111541232104677444360084500000918390250301114994669007624443600689000013214502207011054906271059200036008350000230160016080110547499100000444360062300003659525190901104696558000005383600643000007626251507011053509500000044436000090000060945022070110587596800000557360080700003620450220801105782139)))
 (.node 2 (.node 1 (.leaf 10592429360082400007180550180801115559612048594443600771000088926001605011072628770323644436008450000222445022030110623011100000444360083500002566600160801106493186047154443600872000087604502203011074298111059219536004310000344860016090111606988410592422360085815567332500200501107168605052404443600845000039844502203011153731330355544436008450000565633028070111610589601329444360064300000777625150701107524583105924443600858000075985002005011077093300323644436008070000571445022030110728881305125444360082405467297450220501107911023051254443600846000089314502208011072438470000044436008450000292045022030110761661904657444360084500000644450220301107053759)
 (.leaf 444360000000000367450220701107170485007624443600576000050875251901011079465590140444436005580000509562515080110707419110592422360082809177740500200501117661042000104443600689000007865751707011173543550439444436000240000217645022070111498058506813444360089600008853450220501108516850042364443600870000089164502205011083323070421044436007710000894057517080110852328803553444360034900000458450220301107835624105921613600771201176294752105011172029100588144436008423956592352519050111584743700000444360000300000303450220301115789345046464443600000000022494502203011082751701059244436006890000526660016080111650000910592384360082822238881525191401108676658))
 (.node 1 (.leaf 10592444360092017778872450221401108759644049244443600807000068534502205011170665120140444436000000000564345022050110830272500000626493050500002305575171501108538469105921613600933000077895751705011162718180000044436000000000019945022070111585874900000444360056700008098450220501108519175000005144221141000035944502207011159247421059206036000240000459147521070111656092110592417360064316508614450221401108947676105924123600828099476024502214011089881530892444436008560994824129030140110878776200420444360082813976195310291401108781918105924443600000000061167001207011099659351059229236008390309883447521120110877907302445444360063400008710450221401116323631)
 (.leaf 4408444360099900009003550180101116170067007444443601058000034374102407011089130711059244436006861372878145022120110946682005697444360065639307147430231401110318853105920003600689048182883102914111178933430000044436005170000638245022050111649431104278444360068900002284525190101115718224041384443600819000051204502203011092641540355444436000000000101045022030111735119805125444360062700008710450221201109447200000004443600192000062406501409011093003160140444436011410000658445022070110939211810592444360060100006155600160901109592510000004443600837000062514502210111168348390512544436001980000758450020140111766701907020444360063400006165390250501115226330))))
 (.node 4 (.node 2 (.node 1 (.leaf 10592280360079925178883430231201117981895105921333600799062489665501812011099187270309644436000110000713545022050110921871300000444360064300004904450220101115976300000004733601141000075385002007011098116791059207036006693457889552519120110992494110592347360077714218938600160501117547796096044443600777227489386001605011100238490569644436006272500807329030120110960409310568444360082838939037550181201109970419105920003600819117772263902510111159490630000044436000192122545145022101110932037205125444360063400007893500200801110237759105924443601008000075565751708011102000011059219836007822925771550020120111024728810592167360077100008665450221211117085963)
 (.leaf 5872444360083700008614450221011110461677088374443600828089688534502210111179259030000044436008030102400545022101111587804005087444360074204325696390251001109982406058724443600837283786415002010111184519441059260936007710000897655018120111038957903554444360108600006036430230501116032323105924443600613356986844302312011102916521059200036007712827838345022120110978442905125444360084900008144410241011117437933000005864530917099926825501801011158700850462344436000070000433345022101110977801505488444360000800004728450221011117310441105924453600777000087104502210111105235420681444436008490233897143023120111619741505952444360010400005202700120501110943270))
 (.node 1 (.leaf 10592444360083936378241450221201110350035105920003600689258569244302312011163219510944044436006980000878145022101111022490305691444360062300005502450221611109906235056914443600639000086895501810111102317111059232036007900000802045022100111043645709148444360070400008633390251011110736112056114443600585000088184502210111174518090791044436008350000540245022101111756573810592444360082507018698430231201110637921105921823600719333768134502212011163397440805944436004770000648445022101111014749206190444360085600008929500201011116202436051254443600977159568624302305011157886971059200036007990000848845022101111070647404965444360068900005229625150501111165075)
 (.leaf 10592180360074233738994475211201116198144105924443600689000067475501805011111485381059211536007710000887245022120111107350409437444360065634448854430231201110769016105924063600714352771805501814011180864430960444436006980000843252519140111156393809846444360023200008625370260711118154226091484443600634065185283502710111178272940805944436002931346867155018101111088954610592520360083503768943500201211111693761105924443600937037084493102916011149426401059233831804860086586445022101111165473510592600360078200008847550181001118341316105924353600170100234794302310011177730520806444436004860342838841024161111174973310592381360060500003656450220801111915822)))
 (.node 2 (.node 1 (.leaf 8455444360083500008534370261611117705196099144443600617000045594102410111178051821059235236006640621851635027121111239726508064444360077100008997700121611112335001080644443600870000085964302316111120238641059224436001160000490445022120111613074510592157360000600005841410240801118352877105923523600605137885463702612111121320141059244436006980000898657517161111387238110592626360077126149010550181211112303307080644443600771000081307001216111116596390684444436008750738630543023120111579169110592000167083606137523450221001111915002080644443600366000085593702616111127004830806444436006270000899262515161111573982008064444360094800008697410241611112404770)
 (.leaf 10592279360055800008098450220711118209716103774443600771000090117001216111126524731059244436008582085616745022040111343717010592158307059200775421410241211115880267105920003600064000049044502210011122816001059200036007191257899457517121111298999900000499360047723827613450221211118485916000004443600890000087634102412111181127131059206536008480073871045022101111232899410592000360083537087550450221001118086641103774443600517000077976251507111160569181059239536006133647773045022140111861325806814444360085805708764430231201113080547105922213600192019988364502216111136778470000044436006340000275750020161111810319610592000282071406888441410241001113812880))
 (.node 1 (.leaf 10592444360023200008970675131611115844022068144443600000000033054502210011157536260661144436000200000866545022100111890754200000444360086727658996525191201113474179105920000830232043783174502207111158173621059244436001360317901867513161111620017910592000019022100006227525191611113163926105924443600019000090477001216111162555830569744436008701282788541024120111583611604269444360070408998416430231201118756735105920000910856337279362703110011185333270980944436002150431881647521161111587863810592481360023204308899450220711113406266071834443600836019287814502205011161970621049244436002320000883645022161111866425010592111360055816598640370261211118867613)
 (.leaf 10592111360068906558611525191201113891649105920053600856367475792703110011149631820000044436000040000231745022100111822479703817444360000000004257450221001116074236011994443600777125472233502712011140687450467944436002070000288345022101111330173201199444360052800002780410240501113829437011994443600689000037943302805011135594200244544436006230000726931029120111537675809149444360033400006813450221611118892742105924443600020000090266251516111143261930394344436002470000305745022100111545046204269444360071903046848310291201114181035105774443600148086486046001616111187422041059244436002730000900645022161111627786110592444360002800009006650141611115557266)))))
 (.node 8 (.node 4 (.node 2 (.node 1 (.leaf 10431444360005500008030675131611114686561105922183600824018188854502212111157007971059221836008240000896745022121111974019010592218360082405228993450221201115612519105924443600000000066524502216111189814521059244436003660000898645022161111616130110592444360017000008157525191611116490353105924443600027000090516751316111149872590422444436007090000432933028080111521853910592444360018600008894550181611116043284105924443600528000088975002016111153602590000055936007790000700041024080111607525805697444360084502907285410240201116083568105924443600232000085845501816111167632200422444436006390047713037026120111500030210592128360080300006750290301201115607266)
 (.leaf 10592444360048609168619390251201116564425105924443600366000090004502216111158345210537644436008030000701047521140111602749010185444360055801678971430231201116012527105924443600192000090216001616111153523841059244436004130000706655018120111567110710592444360070900009041700121611115946199105921323600858000070882703112011151713901059244436002320000905167513161111532474306226444360087000008783430231411115567760105924443600019000090527001216111149073341059244436002150000711262515161111498467110592000360044200008831550181611116114014105924443600015000090496501416111162406841059244436000190000905170012161111642734709433444360022600007168500201611119438353))
 (.node 1 (.leaf 10592000360082800005235350271211115498677105920002180849000072974502210111153186751059244436000210000873065014141111585359710592096360079900005856390251011115747685085674443600879000085393502712011152275981059213536006690000883447521101111574431110137444360030700008665450221411115218409096044443600907058479094502210111160445811059261107403070000904157517141111574676810592118360054000008942525191411115399189094604443600664000089145002010111158909520964944436000160000430037026161111632074706814444360054900008577370261411115958344105925183600862000082552703109111159025361059200036008770000499837026080111587889810592215360048600008316450220901115948708)
 (.leaf 10592166360065600007495450220901115700073105925923600870000084213502709011159862240817044436006860000895457517090111574736010592104360057600008801450220901115750861096044443600592000083583302814011159435780355444436008980000869937026080111615337009604444360064305687041330281401116096858105924443600232000090085002007111157895970355444436005920000748739025100111628959508152444360062700007988475210201115742222105920003600790000082194302307111191952950834844436005920000871045022071111579849510592000360057600008763450220711115855520035544443600601000085043502702011168185280802344436006050000904562515020111589517110592000360046700006964310290201115813136)))
 (.node 2 (.node 1 (.leaf 6815444360054900008431500200201115853784047204443600477000080743902502011191129080960444436006860000900645022020111606838602445444360050500007990500200201115799477105924443600357000090064502210111160791231059200036004670000900250020020111595248404720444360084500008872450220201115975550006974443600486000090234752102011162998180000044436006860000901745022020111628860610369444360033400008965575171411116954821000004443600689000089814302302011157850530936944436004230007879941024090111588483904720444360048600009038675130201115386749056974443600766000089714302302011200842661059209536004770000706033028020111592893410592444360048601318746675130201115376393)
 (.leaf 4720444360052800108975575170801115340907000004753600714000048313302802011159428301059208036000210000873957517090111940404110592604360044202478206350270801115694346056974443600486000083514752102011164029531059244436002830000841250020080111593924510592189360050500007926650140801115296898002384443600486000088834302302011202909450991644436006640000885443023141111590543002445444360048600009023475210201116801166046224443600919000087093902502011168883781059218936003660000748043023080111556524106190444360034100007632370260201119289383000004443600517000071143702609011192537660879244436003410000738543023020111575896408746444360032200006792525190801115561754))
 (.node 1 (.leaf 10592003360046700007927430230901115895489000004443600799000085013902502011196305700966944436002320000881452519090111599888309234444360083900008905410240201119826390035544443600842000088644102402011164141081059224536005400000864639025090111953086010592597400054000008529330281001116159247105920733600467000070023702608011156295941020644436008070000748739025020111967606110592081360046700005755430230901119428022105926183600853000089076251509011156855201059200036000640000644635027090111594946810592610360029300007344410240901115376783105920813600592000083063102909111158686901020644436006560000735845022020111593531207439444360068600008986450220901119695700)
 (.leaf 8692444360000000004577450220711115747134082004443600528080557244502207111159974341059200036003570000877955018091111572492510592140029048600008866550180911115803495105924443600686000087443702609111174123841059244436002210000814865014071111566005906814444360077700008899450220901115690741105923373600148049989295002014011153726891059233736004500000869539025140111566957310592444360033400009037550180911119285991084794443600048000086676251508111145024801059241636004130000520141024091111487189710592444360033400006761525190711115882528105924443600714000075593902510111158727981059244436005760000896745022041111944661310592444360002100009038575170711115601839))))
 (.node 4 (.node 2 (.node 1 (.leaf 9235444360083700008924600160411119505185105920001440592000089775251907111148773291059244436007660000898143023161111450745610592094360033400008831550180711116233236105920003600467000089054102407111187294801059244436005920000905270012071111599833410592000360057600009030550181011118910706105922163600170052861356001607111184439741059244436002150185598633028090111445113510592000360068900008981430230711114844050105924443600643000090014752107111161693891059200036006820000677250020071111403020110592444360071400009015525190711116092506105924443600643000090234752107111160251470970144436007040310852933028120111544896710592444360022100006564500200711113904052)
 (.leaf 9115444360001900009048650141001113032920105924443600714000089575002007111144435341059210136004130000891547521071111858141204963444360071400009018475211211113484922105924443600837000084943302812011157297381059210136002930000869843023071111255323210592251360034900798441410240711112730879099914443600341000084874102407111182301040848844436002930000575543023071111108214000000521360099300000761300020701113601013039814443600104000066973000205011092793780330944436001570000798630002050111471266201296444360062300000671300001501113325568022904443600623000008673000015010894654690318944436006230000026245022150111332556803188444360062300000867300001501113325568))
 (.node 1 (.leaf 3137444360019800000000300001501113482672031834443600198000000003000015011134826720317844436001980000000030000150111348267203277444360019800000000300001501113482672033794443600623000000000000315010920035250327144436001980000000030000150111348267203248444360019800000000300001501113482672032494443600198000000003000015011134826720326444436001980000000030000150111348267203200444360019800000000300001501113482672032004443600198000000003000015011134826720320044436001980000000030000150111348267203200444360019800000000300001501113482672031024443600198000000003000015010930048020310244436004860000000030000150109350421701559444360061300001283450220701115322526)
 (.leaf 1559444360074200000867450220701099007248031864443600486000000003000015010979554380155944436008700000132145022070109949088902067444360087000001417450220701099851693017174443600932000014174502207011003509200303744436004860000000030000150109964778102366444360095800001435450220701115978062017834443600870000015104502210011155637100164344436009570000062245022070110171503002366444360084500001453450220701101678761024454443600845000008984502207011160378040000000036008480000126145022070110223630702662444360070900001275430230701102348016036104443600486000000003000015011010841260294844436004860000039530000150111348267201643444360084500000949390250701103204436)))
 (.node 2 (.node 1 (.leaf 238444360061700001115450220701102885428000004523600845000014534502207011161018390000035542708450000139741024070111575264401081444360109600001528450220701115155796073414443600623000010094502207011157628770478344436008450000071445022070110275132200000452360084500001453450220701103310508000864443600024000003815501807011031701220284644436006230000045130000070111332556800000444360000300000383450220701116003931047834443600845000006034102407011026992910512644436008450000071445022080110288628500000444360083700001245450220701102719496000004443600144000003674502207011160613330000044436008070000196645022080110282336502986444360062300000543300000701113325568)
 (.leaf 4217444360084200001558475210701115040439016434443600349000012304502207011161964990000044436008450000135445022070111569258300347444360080700002574450220701103441166000004443600836000006746251507011031948700145744436006230000119762515070110300271500000493360061700001399625150701116712480033704443600486000000003000015011134826720000058736006890203594355018080111589654910592325360093600006170550180801103320690105924443601010000075985002008011160700140000056036008070000346245022070110456689300000521360101400002893525190901103098370000005793600016000010104502207011039509920180744436006230000115660016070110390770810592444360068900004454575170701116584696))
 (.node 1 (.leaf 3347444360084500001308390250801104421257000004523600017000002674502207011153246720042044436005760000771255018080110473046400420444360047700000383450220701104228369004204443600592000003834502207011041505330414244436005920000043645022070111523965001815444360084500000850450220701104892648004204443600865000037154302307011167088380151244436008700000152445022070111521917500000533360080700003898450220101104315978007344443600623000011476001607011042167780569744436005670000768257517080110497134510592444360088800008463500200101115493296035544443600836000027284502208011051196120000044436006230000077160016070110415265710592190360063401778155625150801106357376)
 (.leaf 5126444360034900001398430230701116235426000004443600836000022645002008011051392100000044436008580000289762515070110509004700762444360077100001465450220701115324651105920003600835000023266001608011163242350000044436000600000267937026090111521335300000538360064300000769625150701105242311000004443600011000009014502207011152608250000055745907790000330545022080110598702904859444360080732988878575170501107076787032364443600845000023694502203011061567940000044436008350000288960016080110628859810592429360071421217626525190801106386296105924443600848000087385002008011065425300524044436008450000153845022030111504669400000444360062300006618525190701113939356))))))
 (.node 16 (.node 8 (.node 4 (.node 2 (.node 1 (.leaf 10592422360085314227490525190501106581703105921953600026000051656251509011078819720132944436006430000078665014070110761828110592444360085800007547500200501107747822032364443600807000055604502203011069271331059242236008282150776750020050111548487605125444360082437367307550180501116696590051254443600837000089444502208011153184980000044436008450000270945022030110760319904657444360084500000741450220301106935381000004443600000000003674502207011152206820076244436003660000486657517010110780683201404444360068900005207600161001106318029000104443600643000008337001207011159588560681344436008350000885345022050111692214301404444360083200008836450220501117366918)
 (.leaf 4210444360077701188958475210801108551778035534443600349000007354502203011076945570000044436000000000024445022030111705875910592161360077707117461500200501108419161049244443600807000056024502205011082568170464644436000000000122245022030111587756510592384360082800008879550181401116435313105920003601000366989164502214011091826600140444436000000000540545022050110856690700000444360000000000140450220701117078795030724443600467000020125002015011160229431059244436006890000522760016080110858193310592060360002400005474450220701116701144000004443600627000079974302314011085523861059241736006232851861445022140111625970310592412360082811377598500201401108976941))
 (.node 1 (.leaf 8924444360097800008407330281401117533430004204443600837192862252703114011161734480244544436010460000852845022050111627355904408444360091800007933600160101116172374105924443600000000061437001207011099174380971944436008370652886950020120110908581310592000360077931408404350271401117966976000004443600793000065984502205011161376070074444436011410000359445022070110895346010592444360076640648868525191201117965685105924443600824302471744502214011165502220355444436000000000115345022030111599110804138444360086500004528430230301115971654051254443600714000086654502212011096676260000044436000060000623470012090110938848601404444360114100006584450220701109080864)
 (.leaf 10592444360068900006341575170901109668573105922803600627107690086001612011097061081059213336007991067888447521120111618964300000444360000000005182450220511108817217051254443600845000061724502205011177022290309644436008620000815447521050110923644207020444360079000007909450220501114904808000004733601141000075105002007011098496271059207036006981421889750020120110948902209604444360077123298940575171201116639241056964443600643278480492903012011098083820000044436005920000482745022011111586690610568444360083709139038575171201115878111096044443600862075789135251914011176695181059216725907090283852845022121110934262900000444360002700003847450221011109390040)))
 (.node 2 (.node 1 (.leaf 5125444360077100007621410240101117924944035994443601158000076145002008011099765291059219836007823551776945022120111006649010592000360084607497552430231011109598133058724443600656000086654502210111106767860508744436008370000676939025101110979753704397444360066900005835500200501110260493088374443600714000072453902510111163645720512544436008361263810639025101111582334310592609360077100008925575171201110671352105924443600846113463244752112011162668891059200036007792887848845022120110977614905488444360006000004728450221011109815048046234443600024000032234502210111097601360000044436009720562431952519010111029713106814444360087000988744370261201116288216)
 (.leaf 10592442314080300978763450221011110595658059524443600643000057356501405011165000201059244436007660550504852519140111057825609440444360070900008899450221011115586898056114443600777000089936001610111159210670569144436006010000867647521161111583634007910444360082800006061450221011110244341105923203600803000081744502210011103881380914844436006860000728439025101111049541810592444360079022078801450221201110699329051254443600846120785264102414011178039331059218236008073505664145022120111083341608059444360051700006615525191011110229549105920003600799082484384502210111175972550496544436006890000548065014050111835994006190444360085800008896430231011116305857))
 (.node 1 (.leaf 10592444360068911757839600160501111242331105921153600777351689885002012011161985490943744436005402979883645022120111536694609846444360080700005691310291611111778217096044443600799038688004752112011116768060914844436006170000707933028101111111014710592406360074225406997450221401111458788080594443600307000083566001610111107473241059227136008490088891547521121111811777510592123360033400005564450221011118150116080644443600349000086074102416111160058150845544436008750000878041024161111534372010592088360082804988816475211001111966731065094443600714008342574502208011120013581059243536006052345739245022101111796373709914444360035703394257450221001111682927)
 (.leaf 10592352360064317168577370261211118366453080644443600771000087637001216111119250000806444436009330000848741024161111175795110592352360081920578507330281211112534710105924443600719000089665501816111196395481059262636006860000900352519161111604428708064444360066900009024675131611115836076080644443600771000080507001216111114547261059224436006340000880145022120111804592310592075360083728437297450221001111933971105921573600669061383566001608011118037330806444436007040000900160016161111610076510377444360077100009017700121611112968123105922793600639000054404502210111181697611059244436008282772642645022040111627810510592000360022100003753410241001118175443))))
 (.node 4 (.node 2 (.node 1 (.leaf 444360089007268728410241211115448782105926263600779174889555501812111125074010846444436000320000651943023121111849513800000499360061323738317450220711113279845105920653600842020488815251910011124420611059200036008321321752345022100111282359110377444360061700008557600160711115962221105923953600567057786654502214011188583280000044436001700000179847521161111834053910592221360055800008914500201611116305989066114443600025000058924502210011130130051059200018007192071869843023100111321670610592444360028300009018675131611115769274000004443600877110287804102412011183695521059244436001760000899165014161111614176606814444360000000003421450221001118437266)
 (.leaf 444360087712028619390251201112935132105926263600221000057095251907111133280161059236836002260066824145022071111865361710492444360040010848712430231611113611379042694443600832043185013902512011161856131059248136003410063892950020071111336400410592007360068206558836450221001116044064098094443600183000088145251916111160017051059211136007192285899345022121111409411207183444360069804288781450220801115786589105921113600413000088834302312111189587351059200536006980650878145022100111909037200000444360010400003366450221001118240655038174443600000000037984502210011158727160467944436000220000311045022101111333294001199444360076600002741350270501114977274))
 (.node 1 (.leaf 1199444360068600003328330280501118687535105774443600176000087395751716111185304971059244436001570304900045022121111913567604269444360085804208226310291201114053234091494443600334000064264502216111143931621059244436000190000841970012161111552305503943444360006000002997450220501118233974105924443600366000089874752116111160922121043144436000260000882370012161111499188910592218360082405258957450221211119743315105922183600825029789934502212011154863941059244436004860000895745022161111626502710592444360018600008354500201611118808701105922183600819000089774752112011193798191059244436002260000902347521161111625480404224444360068200005448330280801116226717)
 (.leaf 10592444360001300006697450221611115934812105924443600232000085035751716111197138301059244436002150000893860016161111483829900000559360068900488526410240801116092414105924443600870000076814102408011190423991059212836008450000669627031120111474198610592444360036600009017450221611115621617053764443600790286676604502212011198983791059244436001000000902565014161111509998210592444360028327008965575171201115688174105924443600100000090426751316111154462911059213236007790000713037026080111921974510592444360023200009051675131611115971659105924443600192000076806001616111192193121059244436000050000904460016161111677431310592444360001900009045675131611116705173)))
 (.node 2 (.node 1 (.leaf 10592000360011300004623390251211115346893094334443600232000065655002016111157502031059200036007190000729745022101111522085510592096360069800005558330281011115968629085674443600867122786953902512011160613011059213536008700000900747521101111579555309604444360085800008993450221011119565187105924443600021000090256501414111156704041013744436004230027867847521121111555677210592444360005700009038575171411119563979105921183600349000090025751714111158116630946044436008530000897850020101111612020306814444360042300008640370261011116031887096494443600116000049213902516111160138511059251836006980000876139025091111951458610592000360085800005949430230901115548418)
 (.leaf 10592547360050500008351475210901115960187105925923600837000087423902509111159297110960444436005920000854133028140111593614810592166360062700007285410240901119236675081704443600505000089685002012011157022301059210417106690000883645022090111979092509604444360068200007079330281401116065643105924443600232000089574502207111158845590815244436005761197902155018020111568070610592000360060100008292430230711119189689083484443600366000063994502207111156742090355444436005760000851635027020111694385810592000089080300008573450220711115823019105920003600467000069303102902011193886410681544436005400000903055018020111578004304720444360048600008429450220201115451586))
 (.node 1 (.leaf 9604444360054900009018475210201119572330024454443600528000079515501802011161052790330944436004231267720243023140111527677610592444360054900008920410241411116144730047204443600824000088844752102011160937081059200018605760000895847521020111573675000697444360048600009023475210201116719438000004443600669000090174502202011204220620936944436009620348861835027140111579473405697444360085600008920410240201119882394047204443600486000090486751302011190575171059209536004670000699331029020111578421310592444360048600008806675130201115027287047204443600517045789314502214011158755600000047536000600000636143023020111620100910592080360002124218153600160901115992759)
 (.leaf 5697444360048600008977475210201116532671105924443600349000087435002008011158511471059218936005400000774050020080111875663810592073360046700004780330280801115572526002384443600486000089204102402011167002610244544436004860000902347521020111656308809916444360054000008958475210901116632203105921893600283000077815002008011153049950619044436002570000809745022020111588727102445444360034100007984475210201115763110087924443600517000073854302302011159133441059200336004670000793041024090111574074108746444360054000008931450220811119383247000004443600656000079383902502011165824080355444436008390000883141024020111598765609669444360023200008988525190901116047696)))))
 (.node 8 (.node 4 (.node 2 (.node 1 (.leaf 4397444360054000008479330281001115963446105920733600467000060784752108011157459561020644436006430000731739025020111594961310592618360087000009000625150901116115056105920813600008000049625251909111157473311059200036001980697571137026090111934163210592059360040000006911350270901115928790105920813600621027069163302809111156895621020644436005920000897645022020111939878907439444360062300008939430230901119304963086924443600000000038114502207111152363101059200036004500000856652519091111571172808200444360058500005967370260711115859953105920813600477000089655751709111153781681059244436003570000816567513071111913320710592541360080700008952430230801119299320)
 (.leaf 10592337360046700008836450221401114914085084794443600027000089246001608111193868511059241636006560000533845022091111457501010592444360002100009038575170711114249737105924443600709000079474502210111187180001059244436007190000901055018041111918849610592444360068900008995500200711116090641092354443600836000090155251904111155103281059244436007420000898143023161111593158410592094360033400008779550180711118898443105926263600634000088904102407111157684951059244436007040000902850020071111917724710592000360062300008995500201011118955426105924443600400000072082703109011186346361059221636003490000586362515071111599937810592000360063400008840390250711119347121))
 (.node 1 (.leaf 10592626071066900007028500200711118816604105924443600714000090234752107111142456031059244436006690000670460016071111368170610592444360022100006612500200711119130540105924443600714000090064502207111156878760911544436007902697784445022120111589075010592101360059200008461350270711115915410049634443600714000090174502210111135860811059210136003410000862041024071111277303910592251360029300008635430230711112946424099914443600384000082953902507111181335180848844436003410000596341024071111785497803981444360010400006697300020501109373658022904443600623000004883000015010894654690313744436001980000025030000150111332556803183444360019800000090300001501113325568)
 (.leaf 3178444360019800000000300001501113482672032774443600198000000003000015011134826720327144436001980000000030000150111348267203248444360019800000000300001501113482672033794443600623000000000000315011136797190324944436001980000000030000150111348267203264444360019800000000300001501113482672032004443600198000000003000015011134826720320044436001980000000030000150111348267203200444360019800000000300001501113482672032004443600198000000003000015011134826720310244436001980000000030000150109300480203102444360048600000000300001501113482672015594443600682000008984502207010994214780318644436004860000000030000150111348267201559444360087000001465450220701099705510)))
 (.node 2 (.node 1 (.leaf 2067444360087000001427450220701115514580017174443600948000014274502207011002140400303744436004860000000030000150109964778102366444360101800001427450220701101299510016434443600963000006154502207011014130330244544436006270000093645022070110127719202366444360084500001427450220701116057768000000003600848000013004502207011021375760266244436007090000122843023070111571235501372444360084500001524450220701102708119023264443600623000014354502207011030203840361044436004860000000030000150110108412601643444360084500000949390250701102592864029484443600176000013673000015011133255680478344436008450000064445022070110260450800000430360084500001465450220701103067574)
 (.leaf 444360040000000383450220701102792219000864443600024000005335501807011030772980421744436008700000154245022070111511727901643444360084600001335390250701103453958047834443600845000007144502207011149854590512644436008450000078341024080110290428400000444360074200001149450220701115824490000004443600845000006224502207011029507030000044436008240000248545022080110297766100000444360000700000395450220701103027447003474443600807000015184502207011029909920000049336010110000138950020070110407153000000444360085600000674625150701103094329014574443600623000012066251510011144197910355344436009010000878455018070111609102210592325360104400006227525190801115176109))
 (.node 1 (.leaf 560360080700002431450220801104007646000005213601141000027273902507011029129460337044436004860000002930000150111332556800000587448070906926506550180801114834043105924443600777000043935002007011158520070000045236000050000039545022070111634284900000579360000000001149450220701103983734018074443600623000011476001607011036024570334744436008450000130839025030111547167600420444360077100000639450220701105001995004204443600576000076555501808011163205130042044436007420000036745022070111512714001815444360084500000647390250701104973214000005333600807000038604502201011043833450073444436006230000108860016070111592870210592444360090400007588625150801115620950)
 (.leaf 4142444360084500000436450220701115267849035544443600807000023694502208011162833400000044436006230000079560016070111577090210592444360063900008286550180801115766106000004443600836000023275002008011055125380000044436008580000282962515070110471267800000444360001000001199450220701105590656000005383600643000007256251507011053374520076244436007990000186545022070110579590802364444360070400003305450220701106434828105924443600842000088325251905011156905090323644436008450000277245022030110625722600420444360084500000516450220301105796263105924293600714097474115251901011165969411059244436008370000872250020080110633465310592422360079900007766525190501116149592))))
 (.node 4 (.node 2 (.node 1 (.leaf 10592195360002600005122625150901116954770013294443600643000007847001207011076644181059244436008580000757050020050110773528610592029360084500008944450220801106905357032364443600807000039654502205011064183570000044436008190000225145022030111575851504657444360084500001199450220301116372471007624443600549000059935002001011161244900140444436003340000524362515090110693754705125444360082836387235450220501108639109000004443600000000003674502203011069847010421044436008390000898852519050111761891103553444360018300000812450220301107561889068134443600832105488364502205011084450810464644436000480000203445022030110792713910592384360082827238964600161401115960197)
 (.leaf 10592161360079000007057450220501117350142049244443600807000052164502205011085362650000044436000000000171445022070111603016710592060346002400005560450220701116254299105920003600890000089444502205011096087090140444436002730000530645022050110829692210592444360068900006726600160801116334076061904443600639000088184502205011088837850076144436006980000826241024140110882583200420444360066926698799500200501116302801024454443601159000088364502201011163202200440844436006690000627560016010110877839710592412360082823127811625151401117395611105920003600793049683783302814011178839260000044436007420000707245022050110829188605109444360001300005719700120701109182577))
 (.node 1 (.leaf 9719444360082815028879550181401109304721105924443600669215569244302314011090520050892444436008360984794325032140110927645200238444360000000000322450220301108723885041384443600986000034293902507011158355800074444436011410000332145022070111722903910592444360066926577421430231201109333389051254443600689000086654502214011098170220000044436001860000615165014090110911923504151444360114100006515450220701117337589105924443600144000061186751301011098479381018744436005671329889455018120110939767709648444360068620228869500201201117643892000004443600000000061644502210111170707130000047336911410000631550020080110989911710592070360076610588898475211201116023052)
 (.leaf 5696444360062126908341330281201116249774051254443600856000052304502205011174947270702044436008700000775341024140110874563705125444360089000007986450220801109581585096044443600714043977915501812011172821721059213436007043374854843023121110945590900000444360006000003676450221001109517909000004443600790000039524502201011175199350359944436011560000766850020070110978966210592198360076630667741475211201117914604105920003600837000074954502210111094597060587244436006860000885150020101111024003608837444360083602738836450221011109973004050874443600837043256193302810111155397140512544436006980000724839025100111745015404397444360000000005313350270501110572320)))
 (.node 2 (.node 1 (.leaf 10592444360085626816194475210501118094968105926093600771136589275501812011107052801059200036007771468848845022120110963087505488444360010405824648450221011116044823068144443600858000085413302812011163369300548844436000240000409845022101110966894802445444360098200003163525190111116022292056114443600623099268844502210111159462590569144436005920000867745022161111574247210592444360083700007547500200501110530659079104443600832000061514502210111101226751059232036008240000793445022100111056230209148444360068600007364410241011117546298051254443600872221687114102414011161327591059244436007772651602947521120111073365310592000360079900948488450221011110295848)
 (.leaf 8818444360074238967264430231201117767599080594443600232083264264502210111172690901059244436006891481674862515050111129836704965444360071920476058600160501112076932061904443600836022687093902510111117351810960444436007421724880047521120111128804109148444360066400008711410241011111036398105924063600682125967374502214011180919090805944436002260790861750020101111050995110592123360035700005930450221011118036262105922713600877008787114102412011158674530845544436008560000881441024161111504486510592088360077904988671550181001112343309065094443600714260254084502208011159693180806444436008370000896745022161111235926009914444360065603394257450221011115709294))
 (.node 1 (.leaf 10592000360087734468494330281211111822465105924443600643000086806501416111124413590806444436007710000828470012161111173174708064444360096900008633390251611111568641105923522850664253986853702612111180169150806444436004670000839233028161111268552208064444360077100008050700121611111286217105920753600828085272354502210011119217430873544436007790334838345022120111809175600000444360096100008711410241201115565752105924443600858299168134502204011126226511037744436007190000902257517161111299505600000444360091100008728410241211117803914105922793600601000047444502210111181105161059200036008320076889847521100111830911410592000360062100006222370261201118327325)
 (.leaf 8464444360043100756888550181211115949488000004994050664302286945002007111132197751037744436008440591895847521071111821515810592065360083514967709600161001118037860105920001920825044678974502210011133381041059239536006820927688445022040111589058100000444360055800001930475211611118331801105924443600576000090014752116111129908840661144436000080000448645022100111800482700000444360089021768831410241201115686470105922353600709121088184502210011132721671059244436004500198891057517161111593411410592221360048604388697410241211116324410000004443600878100786193902512011129132090119944436000000066393145022100111293723710592368360030725378539475210711116088872))))))))
 (.node 64 (.node 32 (.node 16 (.node 8 (.node 4 (.node 2 (.node 1 (.leaf 10592481360054004308814525190711118253590105921113600689065590004502212111142907260426944436007930000816239025120111893130910592007360068215068801450221001119121025098094443600060000086885751716111139363961059211136002212615897645022121111618060310592005213069809778567390251001119140870105774443600136000088655751716111159205910467944436000000000313945022101111340673300000444360021500002341450221001118326339038174443600000000034404502210011154924650119944436007790305693135027050111529849310592444360001900008356700121611115756005042694443600845000083593102912011160764130914944436003340000673745022161111444114910592444360010013149014500201211118984509)
 (.leaf 3943444360002700002596450220501115466111104314443600134000085435751716111151651231059244436002930000897752519161111594388510592444360051700007844450221611116145975105924443600164000090095251916111143795981059221836007790053895750020121111942930810592218360082802978993450221201116249794105924443600215000090234752116111162174060422444436006010000477931029080111948776110592444360000000006702525191611116142293105924443600215000082445501816111159684761059244436001860000899067513161111948087600000559360068200008192410240801116232122105924443600664000081924102408011161125971059212836008240000688931029121111495218110592444360033400009017450221611115030749))
 (.node 1 (.leaf 5376444360084526498711370261201119451975105924443600021000090386751316111191517151059244436004230000902450020120111568632910592444360002800009048675131611116093123105921323600477000068354102408011159522221059244436000240000879857517161111561503410592444360001900009051675131611116263039105920003600192000061993902512111157445270943344436002320000561350020161111942538610592096360071405926724290301011116177030105920003100621000059005002010111193461961059213536008900000901245022101111613932810592444360002100008730650141411115810266105924443600334000088994502214111158986450856744436008774030858233028120111582188610592118360047703699003550181411115915763)
 (.leaf 10592276360062100008931450220911119519614105920003600639000060903902509011157248311059210836007790000881441024091111575045309604444360070902526865330280901116155228105921663500605000073054102409011158578960817044436008490000895360016141111549414710592444360023200008978500201611115935672105920000430790000086654502207111157277460355444436005670000720735027020111650426010592000360046700006808310290201115687746083484443600517000061714752107111157146681059244436007900000826347521071111572549904720444360056700009044600160201115774250047204443600486000090064502202011156964441059200036006820000629845022140111887515109604444360068900009018475210201116259460)))
 (.node 2 (.node 1 (.leaf 10592444360055800008939430231411119476564024454443600505000077405002002011161874330778944436005280000895750020020111953298500697444360048600009023475210201117288772000004443600634000089814302302011163630670569744436008790000892041024020111623158804720444360046700009048675130201115650696105920953600486000072633502702011158601810472044436005050000871141024020111587441710592444360048600098949675130201115102504000004753600116000079974302302011161098941059208036000210458827357517090111592449810592444360029300008779550180801115698555105921893600549000088825002002011151926651059207336004670247585935027080111577540400238444360048600009017450220201116617788)
 (.leaf 2445444360048600009023475210201116470450105921893600273000079955251908011154419390991644436008250000893145022090111721587506190444360022100008277525190201116186930024454443600257000081785002002011158477060879244436003070000732241024020111581693610592003360024700008257475210901115731136087464443600682000087114102414111159654960000044436007190000844141024020111674467709669444360061700008967525190901115676323035544443600825000088314102402011196534800439744436005400000852933028100111591480110592073360046700006575390250801115972009105920593830221000072644302309011192634381059261836007790000892460016090111581965910592081360059200007594550180911119142951))
 (.node 1 (.leaf 10206444360058500009000450220201116029621105920813600341048562714302309111152295501059200036003660000535647521090111594444807439444360065600008883430230201120102742086924443600003000026154502207111155375301059200022904670000865652519091111564503110592602360052800008988525190911115356616105924443600192000068586501407111191844020820044436005850000605039025071111574453710592337360046703918748430231401114836180105922273290819000089204102408111160701680847944436001570000891645022081111632511808863444360071400005102475210911114793920105924443600072000090275751707111147719591059244436006980000744137026071111426457510592444360083700009036600160411114925996)
 (.leaf 9235444360083500008993450220411119838293105924443600714000086553502707111159402891059209436003840000852762515071111591612710592000360066400008920410240711115732938105924443600709000090064502207111147647751059200036007660000897752519100111601094710592444360079911538378330281001115739092105922163600366279072346251507111148283601059200036007140000865535027071111921401310592444360071400009018475210711116037283105924443600714000067455251907111160599451059244436006820000901347521071111892643010592444360071400009000450220711118384455091154443600790031490124502210011157579661059210136006010000869843023071111600155404963444360071404418840390251011119008931))))
 (.node 4 (.node 2 (.node 1 (.leaf 10592101360034900008636410240711112649345105922513600334000086204102407111132991530999144436003340000862041024071111201994208488444360032200005319430230711110844248039814443600134000066973000205011164919010984644436009070000669730002161111104429703178444360019800000090300001501113325568022904443600623000005103000015010894654690327744436006230000064330000150111332556803271444360019800000000300001501113482672032484443600198000000003000015011134826720337944436001980000027045022150109150173903249444360019800000000300001501113482672032644443600198000000003000015011134826720320044436001980000000030000150111348267203200444360019800000000300001501113482672)
 (.leaf 3200444360019800000000300001501113482672032004443600198000000003000015011134826720310244436001980000000030000150109300480201559444360068900000898450220701099212063031864443600486000000003000015010984444910155944436008700000141745022070111584847901717444360094200001396450220701100314806030374443600486000000003000015010996477810236644436010460000135445022070110162481101643444360094500001427450220701101518709024454443600845000008504502207011010881580266244436008480000115139025100111579376600000000360084800001245450220701102099694013724443600845000014904502207011156424270232644436006230000128345022070111573430403610444360048600000000300001501101084126))
 (.node 1 (.leaf 4783444360084500000741450220701102494210000004443600845000012304502207011152675870000043036008450000147945022070110299221700649444360063900000481450220701102873622000864443600467000013335002007011030114260164344436008450000128935027070110323637805126444360084500001205370260801103109722000004443600845000014534502207011161785920000044436008320000210345022080110295390900000444360000300000426450220701103149834003474443600807000015284502208011146900580000049336007900000124162515080111592659400000444360085300000674625150701115529692035534443601036000086654502208011036412431059244436007190000445747521070111557770900000452360000000001354450220701116211156)
 (.leaf 560360080700003721450220801115878434000005213601141000027183902507011028635600716944436009040692641955018080111544668400000579360000500001261450220701116038038018074443600623000007396001607011038066530698844436006010000762750020080111627097800420444360087000000713450220701104451360000004973600623000007326001607011042068680355344436007770000775567513080111624638701815444360084500000620390250301104974510033474443600846000013304302303011163514020000053336007190000378347521010111602358103554444360077100002764550180801105050552000004443600623000007476001607011048773061059244436007090000776847521080110489931404142444360084500000500450220301116243407)))
 (.node 2 (.node 1 (.leaf 10592000360083600002264500200801105615143000004443600858000028296251507011044332250000044436000690000092743023070111657999100000538360064300000725625150701105305992105924443600835161688795501805011059709410252044436006690000343545022070110580748202364444360071400003620450220701106303237032364443600845000038564502208011060494830042044436008450000054345022030111525114910592444360084500008740475210801106605235000004443600026000046723902509011073589591059242236007140000759652519050110665117701329444360064300000775700120701107914317105924223600872000077935002005011060150121059244436008580000768550020050111602849710592029360084600008944450220801116639763)
 (.leaf 3236444360080700005115450220501116263676046574443600845000011994502203011065534000076244436007140000408452519010110817822901404444360002600005095625150801116588021051254443600828011975504502205011160068060000044436000000000051845022030110692224900000444360034900000558450220301107526289105923843600828000090206251514011078319940681344436008452402883645022050111807784804210444360081900008928525190501108496520000004443600000000020204502203011159589820464644436003070000123545022030111697597605944444360002400004336475210701108195311049244443600803000063804502205011087688971059216136006690323720243023120110830572501404444360006400005093450220501116239056))
 (.node 1 (.leaf 420444360077130138834475210501108989549061904443600682000087814502214011164255650569744436007140000829539025050110893621602445444360115900008963625150101108786896105924443600689000065156001608011092672450802944436008440000771845022140111761813510592000066082403168246310291401116392964042564443600682000070716001601011091486440000044436006391137733645022050111560139504138444360104800003473410240701108836581007444443601001000009613502707011156908730510944436002730000529565014070111591639409719444360082819128913525191401109016057105924443600790126072354502212011163382560892444436008440488798625032140110937405600238444360001300000296450220301108847012)
 (.leaf 10592444360070430868833500201401117532345051254443600643000087634502214011180190620000044436006890000610257517070111031388309648444360071409519014625150501116197079066504443600207000057046751301011099644441018744436005403461892557517140111740815804151444360114100006487450220701109426548105920703600627143689555501812011096096930569644436006642660891645022140111625087804398444360114100007643500200801116122012051264443600865000078814302314011166584140512544436009710000796945022080111736895310592134360070401048614450221211109404853000004443600022028337874502210011095321950512544436009540612689741024140111783800503599444360115700007586500200701109868245)))))
 (.node 8 (.node 4 (.node 2 (.node 1 (.leaf 9604444360071411667819525190501111123094105920001940837090474954502210111157489400508744436008370000561933028100111552347905125444360047706054485430231411117295047000004443600627000028474752101111158257120587244436007040000888250020101110992218310592173360079040296927525190501118010970096044443600766308464844752112011162273040883744436008240102876443023101111604010704397444360107100006095430230501110777900105920613600771000089856001612011108848891059200036007191569857345022120111018836405611444360027305744984450221001110215513056914443600766000085764502210111151785110548844436000090000426245022101111711707602445444360098200003852525190111115919630)
 (.leaf 10592444360077124048040475211201110549868079104443600835000061734502210111102708021059232036007990000843845022100111067778909078444360071402316089475211201110713358091484443600621000072453902510111159855721059200036008070000848845022101111570268508818444360077734868872450221211115749703080594443600771000057103102910111169627411059244436006890000680462515050111106829104965444360077700005457390250501118321953061904443600849039488984752112111184143450914844436006860000889750020101111132810810592123348045025718763450221211115827341105924063600686248968134502214011162166970805944436006171445867245022101111055053010592271284087000008607410241201115895844))
 (.node 1 (.leaf 10592088360068902168830625151001112386928099144443600643000034894502210011114674690806444436008370000895745022161111201618010592000360091118778322310291211111636967105924443600682000088066751316111158998690806444436007710000787070012161111214151708064444360077102128711410241611112619111080644443600819000080266751316111117110771059207536008243478749545022100111194027210576444360070412795914350271011114746252000004443600890382088144102412111184963501059244436008440609629845022040111268542208735444360083538238080430231211115807875103774443600643000090165751716111191628401059200036008320604887245022120111295079410592279360068200006966450221011112133094)
 (.leaf 10592000360064300007403370260711113019274103774443600870142785393502707111182878401059210636007661739826241024071111302340010592395360068204467057450220401117830350105920653600835131573955002010011126208540000044436000000000265345022100111235416506611444360000800004051450221001112548786105924443600442000087634502216111131907571059223536006861461883645022100111326578710592221334065641148633390251211113706197000004443600875068488144102412011130829550119944436000000000316445022100111807023510592368360058510848910575170711113810527105921113600714000089864502212111189558651059236836007990000809845022101111591875909809444360036600008852475211611118855314)))
 (.node 2 (.node 1 (.leaf 4269444360085800008745410241201118832480105920073600682171288014502210011163871741057744436000250000893470012161111866747910592111360044200008711370261211116235493105924443600849163984773102912011196536401059244436001920000841860016161111425747704679444360000000005475450221011113489497011994443600832000085684102412011164335810000044436005920000293945022100111551882303817444360010000002739450220501115526211091494443600322000056624502216111144511531059244436000220000899360016161111963917110431444360022100008665450221611116425080039434443600116005530514502205011155685601059244436002070000901450020161111617605910592444360023200009017450221611116198975)
 (.leaf 10592218360068900526531550181211115296086105924443600192000082665751716111161257960422444436006820000494131029080111653670010592444360001300006783550181611116189970105924443600232000089356751316111157108190000055936007090000511939025021111639238710592128360083600004978310291211115183081105924443600634000083254102414111152384641059244436000600000663045022161111588468110592444360006000009030650141611119204587105924443600019000085996751316111149242521059244436005920000892041024120111617836805376444360061705009049650141201115013546105921323600819000062663302808011152715301059244436000550000765257517161111520868310592444360001900009051675131611115996167))
 (.node 1 (.leaf 10592000360063900005554370261211114940709105920963600714000066752903016111162578611059200036004860000881647521101111589716009433444360023200005924525191611115911915105921353600835000090134752110111156217861059244436000210000884565014141111574401108567444360074205847657500201401114776492105921180950627000089145002014111157734751059200036007040000683541024090111574396010592518360050500008635430230901119797988096044443600714000082823302809011198742331059221536005850000801741024090111592764608170444360068900008995550181411115656380105924443600232000090184752107111161936811059230236006230000878145022071111945085603554444360060500007055350270201116262031)
 (.leaf 10592000360046700086808310290201115878806083484443600334000062324752107111157496621059244436007090000811847521071111574376804720444360063900009041575170201115889012105926263600601000073584502214011189697360244544436004860000771747521020111618514509604444360066900009017450220201116407741006974443600486000090184752102011205976990778944436006390000900045022020111607086300000444360077700008981430230201115993035047204443600486000090246751302011156071620472044436004770000887143023020111920680910592080360002100008363575170901115727310105924443600486000089706751302011153099700000047536007660000740337026020111635046410592444360022100008739575170801115349834))))
 (.node 4 (.node 2 (.node 1 (.leaf 10592073360046700006333350270801115908739002384443600486000088403902502011169797201059218936004000000756741024080111890424602445444360048600009018475210201117052217061904443600341000082934302302011160916560244544436004770000797541024020111580919408792444360023200007495450220201115756524105920033600057000082706001609011158512580000044436006430000891645022020112052382608746444360034100008966550181011116040544043974443600549000085953502710011193010991059207336003410000696645022080111920955510592345360030700006093410240911115748242102064443600576000090174502202011161713121059261836006560000889065014090111644430107439444360077700008825390250201116895388)
 (.leaf 10592081360013400005924525190811115114814105920003600349000077633502709011155971900869244436000250000503452519161111585311110592012360061300008831550180911115702368105924443600341000090184752107111158573761059208136004860000899457517091111611954108200444360044200005723410240711115246397105923373600467081488204302314011146031700324244436008670000884039025080111545604808863444360069800005276475210911115159098105924443600116000090345501807111159072821059244436007140000865535027071111576515410592444360080702909024500200411114890086092354443600835000089674502204011196179131059244436007190000884039025071111907405210592599360058500007390575170711115846086))
 (.node 1 (.leaf 10592444360062100009047625151611115934660105926263600634000088403902507111137657501059221636003660000571762515071111911263910592000360079900009036625151001113803984105924443600714018766022903010011136002541059200036007190000884039025071111443379410592444360071400009023475210711114329027105924443600623000066986751307111163085511059244436007140000901745022071111600675610592444360071400009006450220711115605906049634443600714000087443702607111140177871059210136006050000889750020071111605517810592251360036604798650410240711119104803099914443600293102187484302307111163801660848844436003340000542141024071111077491203981444360028300006697300020501109511060)
 (.leaf 2290444360062300000714300001501089465469032714443600198000000003000015011134826720324844436001980000000030000150111348267203249444360019800000000300001501113482672032644443600198000000003000015011134826720320044436001980000000030000150111348267203200444360019800000000300001501113482672032004443600198000000003000015011134826720337944436001980000009245022150109150173903200444360019800000000300001501113482672031024443600221000000003000015010930048020155944436008250000091645022070109911566601559444360043100000714450220701099320754031864443600486000000003000015011134826720171744436009640000139645022070110076226303037444360048600000000300001501099647781)))
 (.node 2 (.node 1 (.leaf 2366444360102900001396450220701115694800016434443600844000006294502207011017465980244544436008450000089845022070111573702001372444360084800001470450220701101988253000000005030848000012614502207011019666980232644436006230000128345022070111606536403610444360048600000000300001501101084126000004443600845000011994502207011028014800478344436008450000068045022070110230972400649444360084500001501450220701103094189006494443600790000004264502207011028456890008644436008360000147847521070111532669601643444360084500001278370260701115929134051264443600845000012484102408011033289870000044436008320000189545022080110297642300000493393068200001441500200701115279205)
 (.leaf 444360062300000468450220701103911285000004443600000000007144502207011031540770382344436007790000439645022070110363465400000452360000000001115450220701115410564035534443601015000087264752108011159745110000057936000000000046845022070111519946700000521360114100002710390250901102688761069884443600585000077395251908011043433900000056036008070000228245022070111520303101807444360062300000726600160701103931014035534443600839159989616501408011162095300042044436008700000060845022070110416244800000533360080700004341450220801104157009000004973600623000007566001607011044482190181544436008450000077039025030111633730303347444360081900001417450220301105286560))
 (.node 1 (.leaf 3554444360070900003022475210801116167275000004443600623000007396001607011049165041059244436007040637794745022070111504365704677444360084500000516450220301105582107105920003600836000022645002008011055490930000044436008580000285462515090110433988900000538360063400000725625150701114434341105924443600837117088475501805011061641430042044436008450000055745022030110592675300000444360000500000707450220701106100880025204443600704000034624502207011059012860236444436007990000348845022070110577468503236444360083200003876450220801105603159105924443600782000086605251908011073199130000044436006430000450633028090111662712010592422360071400007490525190501106567518)
 (.leaf 10592444360085800007820500200501107226845032364443600828000047584502208011064686070132944436006430000081870012070110829719410592422360083200006657500200501105505129046574443600845000011494502203011066630120076244436006340000697045022050110817103000000444360000400000589450220301107123395051254443600828053576604502205011158017540000044436006270000196445022030111571567100000444360061700000589450220301107479116046464443600845000005584502203011075475981059238436008283245900762515050111736675804210444360084600008929500200501108536616059444443600025000062775251907011170462080681344436008321322888545022140110852723504924444360078200006550450220501108610799))))))
 (.node 16 (.node 8 (.node 4 (.node 2 (.node 1 (.leaf 1404444360061700006382450220501108612150105921613600766051774535751705011173322730619044436006980000878145022050110874813608029444360083505117626525190501109201876105920003600799166185283502714011183084310569744436007900000827435027140111752994402445444360115900008899450220101117683627105924443600689000050496001601011162547630425644436006890000659760016010111004273705125444360071912747292525191201109023960041384443601002000033873902507011088545810971944436008281260898850020140111577476408924444360084216158143270311401109373963002384443600540000002674502203011159543671059244436007661372886655018050110952932500000444360085300006156575170701110939563)
 (.leaf 10187444360054940909002575171401109256387072374443600807000087814502212011095623020665044436003840000755365014010111657665105696444360062739228764430231401109347194041514443601141000064344502207011094791871059207036006641436894057517120110974854510592134360071407578462430231211109394990105920683600837117774174502210111158081810000044436000220000301645022100111552706205087444360045010483734370261001109097972051254443600008000042624502205111173312250512644436007990000798645022140111724205205125444360090400007928450220801110088550035994443601159000076685002007011159414411059217336006644196895652519120111786230309604444360070913996507525190501116053336))
 (.node 1 (.leaf 5125444360084831158461350271401118027090058724443600803000085673902510111099579810000044436007420000230252519010111737718304397444360097600005604330280501116374998088374443600617000065292503210111100827441059206136007140000893762515120111093714210592000360077727968816475211201117784222054884443600009000037624502210111096039560561144436001160999487045022100111771814610592444360077941108396475211201110513864079104443600835000061734502210111176852070244544436008490000549847521100111027858510592504360078200008488450221011110434633105920003600819070184884502210111105221520907844436007143337630247521120111070477209148444360057600008729430231011117885032)
 (.leaf 4965444360079903906232475211401111556265061904443600877081185973902512111113546220914844436007040000892460016101111147185710592444360080721338020450221011111398177080594443600634170785944302310111178601511059240636006821526688445022140111634239708996444360079915918462430231201111829525105920883600621157389207001210011180949290991444436006860000348945022120111165984508064444360077100008836450221611111625524105920003600885291878843302810111180388140806444436007710000787070012161111237962108064444360082500008976550181611112712447105920753890824033474174502214011121919041037744436007770000902257517161111410600410592444360068210687174450221401113549679)))
 (.node 2 (.node 1 (.leaf 444360098019058745410241611116445628105920003600832202889574502212011129941141037744436008671597864037026071111843324810592279360045000007135450220711117849567105920003600601000067773702607111184151551059210636006210328839647521071111284988910592395360068605912310450221401115790722105920653600835070575705002010011182747140000044436000110000194145022101111794394806611444360035700003731450221001115617852105924443600467000088955251916111131881811059223536006861292887245022100111384255310492444360028317508763410241611116008608000004443600871068488314102412011158540110119944436000000000240745022100111836484110592368360029338118800475210711118721099)
 (.leaf 10592111360068200008699370261211118962971105923683600799000082414502207111195257441057744436002260000891547521161111359168309809444360019200008566525191611114308883042694443600870030888144102412011143148811059200736006980536834231029140111526676310592444360038400008708525191611116304412046794443600000000060224502210111134131601059244436008490869872737026140111674953109149444360032200005662450221611118878734000004443600027000024934502210011184109200381744436001480000305145022050111353273610431444360020700007091500201611116373197105924443600019000087716251516111168824011059244436001570000903055018161111497023510592444360023200009017450221611116149278))
 (.node 1 (.leaf 3943444360014800003690410240501115700529105922183600777017989685002012011193905091059244436003570294826347521161111620176504224444360010000006653350270801115694246105924443600198000089347001216111158714321059212836008250000497831029121111560868410592444360080302868486370261411115911137000005594540799204179383902508111163187631059244436001340000903662515161111525464110592444360030700008986450221611116109277105924443600283000086087001216111150574591059213236007770000675841024080111908395110592444360018300007563600161611115543852105924443600019000090516751316111157629951059200036008440000546733028121111505872010592096360071400008338290301611116015411)
 (.leaf 10592000360061700006202500201011115545858105921353600842000089164502210111157243011059200036006230000597345022090111546926209604444360062100008407330280901115972667105925183600567036184414102409011200809021059221536005760000814143023090111576168605697444360052800008958475210901115809791105924443600198000090285002007111162314540355444436006340000693837026020111627134310592000360046700006832310290201115777666105923023600617000088524752107111161539031059244436006820000808435027101111584165410592626360050500007174450220801115751855047204443600828000090375501802011161883470244544436004860000794847521020111642068109604444360083700008981430230201116736368))))
 (.node 4 (.node 2 (.node 1 (.leaf 7789444360071400009017450220201115917211105922253600486000090184752102011160385070000044436006230000897143023020111605748604720444360046700008987475210201119022357047204443600467000085913702602011157952861059208036000690560835052519090111951341410592444360036600008370525191401119092671105924443600486000090056751302011154202360000047536006890000895745022020111631663300238444360048600009017450220201121485046105920733600467000070183502708011159356081059218936003220000741152519080111879462902445444360048600009018475210201121040003105920033600024000083246251509011194528040000044436007710000864639025020111646540902445444360028300008213500200201115992586)
 (.leaf 8792444360059200007245390250201115870652043974443600540000085543302810011158706821059207336004310000711547521080111578669410592345360032200006227410240911115872595102064443600585000090174502202011162287820743944436007900000869937026020111694120710592618360068600008771625150901116313297105920000900558000052853302809011159910070869244436002320000712965014161111606348510592012360083500008925575170911115742296105920813600477000089755751709111158528450820044436003490000883645022071111539171810592337360045000008491350271401118666716032424443600742000089934502208011160971011059244436000640000904157517071111870997508863444360054000004891430230911119085181))
 (.node 1 (.leaf 10592444360082800009006450220411119162446105924443600709000087443702610111157533121059244436006210000874239025090111927776410592000360043100009017450220711114442736105920003600742005990085002010011140222161059244436007714021826831029100111573294810592216269036600006928625150711113913984105920000590623000089624302307111191418011059244436006210000900747521071111614235410592444360059200006744700120711116117060105924443600714000090124502207111161461350496344436007420000892041024071111925739610592101360061300009006650140711115990653105922513600617000088004752107111131590020848844436003410000819241024071111588036103981444360029300006697300020501109683208)
 (.leaf 3271444360019800000072300001501113482672032484443600198000000703000015011134826720229044436006230000071430000150108946546903249444360019800000000300001501113482672032644443600198000000003000015011134826720320044436001980000000030000150111348267203200444360019800000000300001501113482672032004443600198000000003000015011134826720320044436001980000000030000150111348267203379444360062300000256450221501113659796031024443600293000000003000015010930048020155944436007770000093645022100109906896001559444360060500000831450220701099603780031864443600486000000003000015010989199750171744436009640000142745022070110076428003037444360048600000025300001501099647781)))
 (.node 2 (.node 1 (.leaf 2366444360097200001435450220701101410948024454443600845000008674502207011157929150164344436007090000143545022070110150840502326444360084800001344390250701114829615013724443600853000014704502207011162714290000044436008480000130045022070111477903903610444360048600000000300001501101084126000004443600837000012454502207011156431570164344436008670000135445022070110325984500000444360084500000714450220701102154854006494443600845000015014502207011157383430064944436008450000048145022070110262911302551444360063400003714350270801113614536051264443600842000012834502208011036339170008644436008370000105547521070111515123600000444360082800002048450220801115757664)
 (.leaf 444360062300000459475210701116524282000004443600183000006804502207011031736320000045236005280000098745022070111618610503823444360069800004582550180701116216346000005793600307000004264502207011154379310000056036008070000295345022070111611843200000521360114100002752390251001102618440069884443600585146577915501808011155260510355344436009550000892755018080110370612201807444360062300000739600160701103884570018154443600845000006473902503011043838980042044436008700000052945022070110399542400000533360080719694341450220801104306016105924443600704000076874502208011154308870512644436008320000146545022070110536347600000444360062300000739600160701116274497))
 (.node 1 (.leaf 3554444360083500002769450220801105041001046774443600845000004664302303011059340801059200036008360000217952519080110532601300000444360085800002897625150701104560522000005383600623000007036001607011044843331059244436007770000883155018050110585862600420444360084500000529450220301116416968000004443600011000007904502207011151990230252044436008580000417445022070111498306902364444360080700003013450220701116467089032364443600528000048334502208011055695070000044436008360000541333028080111472393710592444360077700008791550180801115983820105924223600714000075965251905011056356271059244436008580000765750020050110748486503236444360082800005167450220301116570857)
 (.leaf 1329444360064300000833700120701116791725105924223600828000066575002005011052509510465744436008420000114945022030110691296900762444360094400007358450220101116149176000004443600837000004914502203011073969970000044436003070000064445022030110736239600000444360084500000644450220301107499952046464443600400000016324502203011074474020594444436000240000354345022070111578959205125444360082838737116450220501108025108014044443600842000088984752105011084370701059216136008280116883645022050110871896010592000360079010438957450220501110022913049244443600790000066934502205011085029200140444436005580000582345022050111737450210592000360076600008957450220501109577016)))))
 (.node 8 (.node 4 (.node 2 (.node 1 (.leaf 6190444360062700008853450220501108737808024454443601159000087656251501011088294000802944436008280000776555018140110921337510592161360070918667332500200501117299104056974443600777000083173702612011088040650425644436006890000498560016010110958319305125444360076608397594550181401109030431002384443600000000005584502203011160545090413844436010440000333041024070111581944710592444360070917068832525191401116439058000004443601025000061305501807011098577091018744436008452642900250020140110904945907237444360068200008801450221201117770760105924443600664193784863702612011090563630415144436011410000648745022070110942070410592070360071416538914500201201117942441)
 (.leaf 10592068360077116408205310291011109374733000004443600000000021754502205011155497740512544436004230000419943023051111580375805126444360063400007909450221401117233878105921733600643317990095251914011176815621059213436007041519841643023121110951873505087444360054000004751370261011109049548051254443601033000079284502208011100572400587244436008370000840435027101111006225004397444360114000005628330280501109692946096044443600771281764195501805011177096360512544436008071277876345022140111628492608837444360065600006930310291011115778940000004443600979000041395002001011158820791059206136007710582899550020120111075382005611444360002701004577450221001110156933))
 (.node 1 (.leaf 5488444360002400004570450221011117255828105920003600777218786715501812111101154700791044436008360000591845022101111599108810592444360069805508816475211201110787780024454443600835131757244502210111175911431059232036007420000809845022101111031797410592000360080700008528450221011116054398090784443600872108263634752112011159756270914844436006430000888447521101111580299910592444360083640147137390251401118389453061904443600844000085853902512111181837920914844436008720000874843023101111139524510592444360080300007731450221011115930429080594443600186000057775251910111161135081059240636006860000699745022140111215797408996444360084500006075430231201118091934)
 (.leaf 9914444360077100006144450221201115852435080644443600366000083834502216111182403241059208836008350339871045022100111202999910592000360080315577997430231011111907617080644443600771000078707001216111121534600806444436007900000899965014161111857821710377444360077100009046650141611113640376105924443600682033369974502214011165490571059200036008351262894445022120111259633410377444360068900009039650141611112456565105924443600777059572354502214011127878521059210636006173218883447521161111270222410592279313079000007838450220711115584552105920003600232000079974302307111157513391059206536008353786755045022100111255080600000444360011300002120450221001112265755)))
 (.node 2 (.node 1 (.leaf 6611444360001900005849450221001115853455105924443600585000087454102416111158157651059223536006820911888545022080111437996710492444360060100008695390251211114137056000004443600870128287994102412011186722730119944436000000000580345022100111562570710592368360060500008317450220711118286505105774443600384164989435002016111190219660980944436005050000851143023161111449354310592111360038400008761390251211114293110105920074030824392783742903014011167590400467944436000000000261545022101111339385609149444360036600008438450221611115630731038174443600567000025964502205011155886620000044436003340000330445022050111558734510592444360022100009023475211611116130532)
 (.leaf 10592444360001900008713625151611116275969039434443600192000038114502205011156660711059221836006860000829452519120111500280404224444360036600005305330280801115317100105924443600136000088636751316111156422891059212836008560000508035027121111948729610592444360082525287002370260811115309044105924443600232000090146251516111155122661059244436003660000898645022161111622043210592444360057600008934700121611115865331105924443600221000087006001616111161704851059213236006390599693945022080111618659510592444360001900009052700121611115659882105920001970709000057003702612111191246911059209636005490000736737026161111637279210592000360051700008762525190711119743206))
 (.node 1 (.leaf 10592135172082400008885450221011119474442105920003600592000067114302309111191894291059227636003490000887245022090112001229409604444360062100008341330280901115992251105922153600413000083644502209011156926300569744436008390000899360016140111570833903554444360058500006975390250201116236292105924443600027000090225751707111161571111059200036004670000730831029020111922588510592302360016400008965575170711115968345105920003600505000068844502208011157774981059244436006860000835833028101111956645404720444360084900009030550180201116120137024454443600486000079884752102011161456621059222536004860000901347521020111643761504720444360046700008539350270201116091018)
 (.leaf 444360066400009000450220201115996351105926032520100034990366251509011160464161059244436002570000838965014140111571407110592444360048600008998675130201115432368000005623600643000090124502202011160698800023844436004860000901745022020112110854210592189360044200008800475210801115231593024454443600486000090184752102011165992840512544436000210000828962515090111581829302445444360020700008386500200201116042565087924443600627000074174502202011158135050000044436006230000900645022020111629914704397444360058500008653370260201115961998105920733600540000072364502208011158171901059234536002830000609341024091111585245710206444360054000008920410240201116231100))))
 (.node 4 (.node 2 (.node 1 (.leaf 7439444360074200008727370260901116267487105920383600709000086046001609111190818110807544436004860000780937026091111606701010592012328085300008963625150911119309849082004443600621000056883502707111159883801059233736000240713898852519140111871034803242444360079900008912430230801115945287105924443600021000090415751707111186575560886344436006270000828350020081111884126010592444360071900008905410240411119044306105924443600714000087443702610111157950031059244436005920000861939025090111474364610592000020060500009017450220711115032010105920003600828030586993702610011141400230960444436003660000670962515071111851390410592444360083700006865330281001113490104)
 (.leaf 10592000360048600008977475210711114057949105924443600714000090174502207111160135171059244436006230000668062515071111596760310592444360071400008967450220711116132930049634443600714000090174502207111145641481059210136006050000895652519071111582393010592251360068900008911550180711118887787039814443600192000066973000205011168966520327144436006230000055545022150111332556803248444360062300000854450221501113325568032494443600623000000643000015011134826720326444436006230000019830000150111348267202290444360062300000805300001501089465469032004443600623000000923000015011134826720337944436006230000029045022150111332556803102444360035700000000300001501093004802))
 (.node 1 (.leaf 1559444360081900000850450220701099762020031864443600486000000003000015010989199750171744436009520000142745022070111591687103037444360048600000114300001501099647781024454443600845000010374502207011159895810236644436010430000143545022070111562293201643444360079900001435450220901101415716013724443600870000014534502207011022111150000044436008480000144345022070111570848800000444360052800001261450220701102160828036104443600486000000003000015011010841260255144436006340000400131029080111364704601643444360084800001261450220701115276554000004443600845000007144502207011022336170064944436008450000052945022070110290320602376444360062300000960475210701115807472)
 (.leaf 5126444360074200001339450220801103602030000004523600686000013214502207011032254320382344436008280000280945022070110317136200000444360022600000644450220701103130404000005793600400000005004502207011034390720023844436008070000354345022080110235346706988444360060100007691550180701115085276000005213601141000027103902508011026013800355344436009680000895847521080110398782600000560360080700002703450220701116141681018074443600623000007566001607011159246200181544436008450000074039025030110536942000786444360087000000468450220701103852858000005333600799000026054752105011046683271059244436007040000779545022070111625400200000444360062300001133600160701104636133)))
 (.node 2 (.node 1 (.leaf 5126444360077100001452475210701115667002035544443600836000028204502208011050570170467744436008450000074039025030110567103410592000360083500002097475210801105149350000004443600858000028296251507011157130260000023036006230000072660016070111574429000420444360084500000481450220301105650420000004443600018000013394502207011160395231059244436007790608868857517050111668124002364444360080700003590450220701106311052032364443600845000048654502203011164699821059242236007140000672252519010111397759610592444360085800007657500200501107495903007624443600835000062044752105011077156270465744436008370000114945022030111504560000000444360084500000589450220301116709260)
 (.leaf 444360084500000680450220301107592754046464443600019000008894502203011154340440512544436008282323705745022050111720659701404444360078201178899450220501108628426014044443600704000052804502205011082859911059216136008283942880145022140110870834110592000360091507118957450220501111228190049244443600682000067714502205011086004071059200036008280000895745022050111744199106190444360077700008853450220501108559712024454443601159101586895501801011177830380802944436008351163783960016050110905663210592161360071425147273500200501115955895000006263600003000025024502203011162689550569744436007140000835539025120111711667004256444360068900005902600160101108643654))
 (.node 1 (.leaf 723444360084500000912330280701108881116051254443600799000076845251912011089866941059244436007932299890762515140111762228800000444360111500006435525190701109585823101874443601014310089934502214011154621721059207036006563348895360016120111771326810592444360065616628585390251201117654715072374443600771062487634502212011181507050415144436011410000658445022030110926530400000444360000300002387450220101109187368051254443600055000042624502205011089567060512644436006340000644341024080111489574209921444360055835199018675130501109789260105920683600704044263212503212111158617151059213436006980612861445022121111768340805087444360056734664813390250511117070257)
 (.leaf 5125444360102600007909450220801109706771058724443600832000085484302310111102590300960444436007423882611943023120111752177405488444360002600004883450221001110048299105920613040771000071203102912011106667080561144436000720100410945022140111009311804202444360098202552318500200101109912426105920003600777218787625251910011158776350000044436009320000428050020101111043847210592069360057624528678475211201116250797079104443600835000061434502210111104964221059232036007710000852845022101111031707710592000254082804108614450221011118041961039814443600719000067256001605011172471571059244436008390000498445022050111130483609148444360068200008577370261011115759467)))))))
 (.node 32 (.node 16 (.node 8 (.node 4 (.node 2 (.node 1 (.leaf 6190444360084202268501390251211111228601035544443600835000038114502210011109726660914844436008720000847735027101111129464008059444360062300008991650141011111284460105924063600714191468844502214011182318890933244436007710753857345022120111577798208996444360089006338763410241201117905324105920883600835109288994502212011121858840806444436008370000895745022161111239689910592000360062133057731450221011111839607080644443600836000090074752116111122214260806444436007710000820470012161111230149010592444360068241517574450221401112332174103774443600771000090477001216111129933621059200036008363155776945022120111827015710377444360070900009042675131611118302202)
 (.leaf 10592106360044230558942525191611112820724105920663600617000076134502207111127018391059200036005490000817445022071111573506306611444360002000007404450221001113126317105920653600825385075234502210011126819140000044436000240000273945022101111230805810592444360084909112310600160801114040694104924443600307000088544302307111145057190119944436000000000316545022100111529349610592368360079900007838450220711118042348098094443600558000083254102416111141788861059211136004670426868537026121111897372310577444360071400608302290301611116325118105924443600870000084773102914011194488380467944436000040000272145022101111339601201199444360006000003811450220501115448378))
 (.node 1 (.leaf 10592444360023200009017450221611114406302000004443600100000033044502205011155896131059244436000220000889260016161111577907103943444360041300003811450220501115681253105922183600704301283314752112011156483050422444436001830000612135027080111521024610592128360087200004422350271201115229436105924443600790071984283702614111151553571059244436001980000898365014161111949528810592444360001900008696675131611116505707105924443600366000089764502216111163273871059244436000190000905270012161111572300510592096360005500008895525191611119469145105924443600844123986043502712011162887281059200008604670000899447521161111593543810592444360084507978604350271201115896573)
 (.leaf 626360084200008931450221011115551356105920002990669002468323102912111161169191059227622205920000876341024090111966624109604444360063402568028330280901115926604105922153600413000083164502209011156115760569744436004860868895750020140111578594403554444360060500006938370260201116094884105924443600192000090335251907111162371121059200036001480000838650020020111584106810592302360022100008868525191011116221630105920001620134000073764752108011157870151059244436006130000892643023141111648859202445444360048600008010475210201116362523047204443600934000090255251902011195895641059222536004860000901847521020111637013604720444360047700008905410240201119953638)))
 (.node 2 (.node 1 (.leaf 444360061300009007475210201119628352082904443600215012883495501809111160487380000056236007770000898143023020112029021100000444360048600009017450220201116723250105921893600442000086264752108011188409960244544436004860000901347521020111722575505125444360002100008105625150901119107775061904443600283000082934302302011194821230879244436004130000699037026020111591820300000444360058500008967450220201116574026043974443600627000089574502209011158545871059260436007420000759043023080111578985110206444360054000008905410240901119479668105923453250322000060934102409111160945110743944436005400000892041024090111974971710592038360051700008557600160911119097993)
 (.leaf 8075444360050500007978370260911116177607105924443600442016188306251509111192064521059233736000571482891547521090111575652110592444360002100009022575170711115206248105924443600714028576024502208011160063310886344436006640000853947521081111866250110592444360068200008876410240401114813654105924443600686000090335251907111144133891059244436006980000892041024071111428144910592000360082800008554330281001116041392105924443600766156384213502710011156904680960444436003660307495262515071111833067810592000131052800009000450220711119070255105924443600714000090174502207111186018681059244436007190000666055018121111580725004963444360071400009000450220711114786827))
 (.node 1 (.leaf 10592101360059200008633390250711115746662105922512410669000089285251907111127634340324944436006230000082245022150111332556803264444360062300000530450221501113325568032004443600623000007733000015010894654690229044436006230000091630000150111332556803102444360044200000000300001501093004802015594443600870000008864502207010992078150318644436004860000000030000150109891997501717444360087000001465450220701116068028026014443600870000013794502207011159700000303744436006230000019330000150109964778102366444360101200001524450220701100847919016434443600623000014354502207011156674280000044436008480000153545022100111459043201372444360087000001435450220701116128462)
 (.leaf 444360084500001199450220701115445503025514443600634000039903102907011012222510361044436004860000000030000150110108412601643444360085300000978450220701102484631000004443600845000007144502207011023772960064944436008450000144345022070111635198500000452360083200001470450220701103064436038234443600807000021854502207011030838740000044436006560000080545022070111588198900000579360055800000426450220701115411374002384443600807000045294502208011021040730000052136011410000274139025080110263264101807444360062300000778600160701103631561035534443600898000088724502208011153022631059244436007040000460647521080111571336301815444360084500000800390250301116190807))))
 (.node 4 (.node 2 (.node 1 (.leaf 786444360087000000669450220701115566334000005334200807000042574502205011045716840000044436006230000071060016070111609535103554444360083600002728450220801105143557000005383600623000007326001607011145366890467744436008450000077039025030110565784000000444360000700000589450220701116133283105920001850835000021524502208011161645410042044436008450000048145022070111633951300000444360085800002897625150901115693322105924443600856000088335002005011169528400323644436005280000511545022080110587515702364444360080700001542450220701116475888105924443600835142276235501805011167932340465744436007930000118045022030110616268900762444360088200007385430230501116019398)
 (.leaf 10592422360071420887819525190501105449199000004443600832000014244502203011073730610464644436007710000068045022030111651715300000444360083500000831450220301107860282000004443600592000054054502205011081531791059216136008280000881845022140110891611805125444360082817986997450220501115985946105920003600777000089444502205011095319080492444436001360000696545022050111610307301404444360095600008689550180501117907243061904443600803000088724502205011086552490802944436008353831790467513050111650125900000626360000200001365450220701117283833056974443600790000084043502712011084721980425644436006890000449460016010110883252500723444360084600000926330280701116702503))
 (.node 1 (.leaf 10592161360079024947836625151401109026739047544443601141000065085002008011163170681059207036006692038889455018120111604574310592444360063912298931450221401109667363041514443601141000066094502203011157181751059206836007141926667529030121111593247400000444360000300002378450220501109054276051254443600517000041994302305111171044000723744436008240000876345022120111011187809921444360090739449030550180501109622199050874443600709173030603502710011090349120500044436009930000792845022080111727834310592134360074209048836450221011110128982058724443600790000086144502212111105943800548844436007141766521545022100111615738506814444360077140317092310291201117701328)
 (.leaf 10592000360092915695930450221201109994957056114443600477292246624502210011175460420420244436008900725352852519010110994692810592000360078221168763450221211117377703000004443600907023341234752110111159808140791044436008250000586445022101111024846610592320292080300008573450221011115903476105920693600799109188144102412011105153040398144436008191835768550020050111099219510592444360083900005044370260501111406990061904443600848000086193902512011109648500355444436008250000381145022100111573992209148444360079000008646390251011111383442080594443600423022489545751710111115369971059240636006891232699745022140111605945908996444360089000008905410241211117907585)))
 (.node 2 (.node 1 (.leaf 10592088360083512988944450221201112161716080644443600799000088854502216111123829441059200004806983356843845022121111827763308064444360082400009030550181611118436409105924443600742416472354502214011163504331037744436006430000900957517161111283582510592000360083640947795450221001115863283105921063600293206789565251916111183605551059206636008240000522145022071111280754310592000360061700008635430231611112718012066114443600016000077004502210011158873721059206536008281916809745022100111322607700000444360001000002453450221001118400973105924443600634121023105002008011162004521049244436006430678874541024161111393036801199444360000000002559450221001115434833)
 (.leaf 10592368360079900004662450220711115764233098094443600766000085143702616111161302091059211136003340424883141024121111422795704679444360004800004110450221011113229634105924443600807042090174502208011161476871059244436002320000891645022161111460422701199444360001500003811450220501115577447000004443600100000020914502205011157601751059244436001920938897850020071111604045110592218360062100008315500201201115733183039434443600226005138764502205011187625250422444436006690000692335027120111515402910592444360006000008990675131611115462412105921283600871000058593502712011153721991059244436008560507848637026121111587090410592444360001900008949675131611116397032))
 (.node 1 (.leaf 10592444360036600009012450221611116546599105920963600221000089405751716111189626871059244436000190000905167513161111599628910592444360007200009039600160711116502964105924443600592003390446001612011160079751059244436007820270899345022120111584155700000626360082800008944450221011116399857105926263600799002584403302812111166122471059230536004130000901552519141111578436309604444360062100008321330280901115860246105922153600334000083504502209011153753281059228636004770000894447521140111590025603554444360055801337089350271001119631956105920003600257000079964102402011159623551059244436000250000904762515071111612158210592302360071400008711370260711116744556)
 (.leaf 9604444360025700006975390251401115858759105924443600585000090145002014111167861160244544436005760000798847521020111661986104720444360085300009031575170201119811328047204443600477000086553502702011161612611059222536004860000901847521020111636490608290444360095112698778390250911116015189000004443600486000089204102402011204543860000056236006820000897143023020112034461510592189360055800008748430230201115197504000004443600486000090184752102011213451660512544436000570000884657517090111571586306190444360041300008343430230201115950309087924443600540000067983302802011195089130000044436008190000879639025020111657732804397444360054000007396390250901115932970)))))
 (.node 8 (.node 4 (.node 2 (.node 1 (.leaf 10592073360025700008122430230801115496677102064443600576000088764102409011160224351059244436002830000607441024091111606216107439444360054000008920410240901116365959105920382740505000088795501809111194836611059244436004860000896362515091111929227710592444360002100009016575170711116314147105920003600157118089164502209011186660961059244436008240000699233028080111600988308863444360030700008763450220811115701875105924443600664000088253902508011148067981059244436007140000874437026161111428448210592444360062700009041575170711113971789096044443600366000048696251507111158075941059200036008280000852933028100111356170510592444360082800006713350271001113486519)
 (.leaf 6425444360059200008820430230711119740657105924443600714000090124502207111135064960496344436007090000902450020071111667857310592101360060100008745410240711115948861104364443600682000089135251907111187456850320044436006230000023530000150108946546903102444360048600000000300001501093004802015594443600870000010654502210010991981440318644436004860000000030000150109891997502601444360087000001443450220701100372926030374443600623000001023000015011133255680236644436010480000151045022070110078649001643444360084500001453450220701101260547013724443600870000015514502207011149267260000044436000690000114945022070110204995102551444360063400004001310291001113494538))
 (.node 1 (.leaf 3610444360048600000000300001501114390197016434443600845000009023902507011153604410000044436008450000073443023070110247322200000452360083500001490450220701103310040000005793600837000005574502207011152890030382344436007820000152445022070110308683300238444360080700004543450220801102073453000004443600845000008864502208011032704480355344436009750000871243023080110355779200000521360114100002718390250801114892240018074443600623000007786001607011037852911059244436006640000439350020080110456040800238444360080700004495450220801104395734000004973600623000011476001607011043901570181544436008450000127239025030111527981400786444360079000000615450220701105191647)
 (.leaf 538360062300000739600160701104379395000004443600004000008864502207011053308980000044436008350000272845022080111511392100420444360084500000481450220301105156714046774443600845000007703902503011159472610000044436000260000255435027090110503135705126444360070400005643450220801105986626105924443600790015187395751705011066792730236444436008070000152845022070110732430100000444360083500006106450220801115407204046574443600779000011994502203011062198831059242236007140000674552519050111638955900000444360084500001748450220301115688625046464443600790000008314502203011153036800000044436005920000083145022030110800311300000444360030700005666450220501116214329)))
 (.node 2 (.node 1 (.leaf 1404444360077100007477575170101116323489105921613600828288888184502214011089317921059200036007900000895745022050111811495008029444360082822239011700120501116507757051254443600828102571164502205011083693850619044436007930000885345022050110857627000000626360000600000157450220701108012107056974443600719000084083902514011162264030072344436008700000084727031070111678773704256444360068900004494600160801117779162105921613600766224474335501805011174946801020544436005582833888250020120111584732210592444360068608038322310291411109374243105920683600704132984473502712111175154550000044436000040291252045022050111729356307237444360077900008929500201201117468829)
 (.leaf 9921444360096240929012450221401109645320050874443600027182035884302305111089033090500044436011410000772045022070110927034310592134360070400008698430231011110216104058724443600835000088014502210011164459611059244436005921155481145022101111745799906814444360070416846982310291201115625869056114443600634307045103102912011098160401059200036007792757651147521120111758309704202444360084600994293525190101110162235105924443600832000087634502210111104772671059200036007931230885345022121111738898207910444360083200006010450221011117438727000004443600837000054774502210111104815091059206936008242024888545022120111027763310592444360083500006326525190501111324516))
 (.node 1 (.leaf 10592444360082808186997450220501111515404051254443600862391085673902512011108776830355444436008280000272145022010111614411609148444360060100908711410241011111644819080594443600592000090066501410111181932131059221936007993330763045022120111833176810592088360083500828976450221201112511471048404443600682312889164502212111181115160806444436008190000893145022161111262573508064444360068200008781450221611112160948089964443600980000087804102412011157244051059244436007661068699745022140111301296010377444360071900009018675131611113104731105921063600627095286654502207111125545231059200016408362495779545022120111822385010592066360081900005865450220711112341450)
 (.leaf 6611444360019203257480430231011112418765105920003600467000085264102416111127238951059206536008241711789745022100111357320300000444360036603213164450221201116070957105924443600807043723104502208011162826991049244436006430000872841024161111859314709809444360080700008447350271611116028538011994443600011000035044502210011181907741059236836007900000786547521071111858668510592111360046700008761390251211119047640046794443600000000032364502210111130878961059244436002320000889945022161111911673000000444360010000002091450220501115632610105924443600232000090014752107111163085401059221836006231120833050020120111514557803943444360041300003466390250501114199237))))
 (.node 4 (.node 2 (.node 1 (.leaf 4224444360066400006032350270201119151869105924443600113000089897001216111154505671054244436007930044812929030120111525870310592444360001900008949675131611115901036105924443600585091582953902512111148611941059244436001760000903557517161111621249710592096323044208058910575171611115115522105924443600423000090124502216111162191730000062636008030000888545022101111648083910592000360076600008407330281211120724380103654443600605309083923302809011157548691059230536003840000900352519141111573194810592215360047700008433575170901115252302105922863600486000090155251914011158085300355444436006980000692539025100111621318510592000360045001307249310290201116004697)
 (.leaf 10592444360000100009013475211611116082232096044443600226000070604102414011194400241059251036005171268887245022101111648740209604444360081900009017450220201116425448047204443600486000090174502202011158989741059222536006890000890541024020111645388300000444360074200008981430230201116996127000005623600656000089204102402011161829831059218936005400010899652519020111505949000000444360058500009023475210201117569138051254443600144000088164752109011157645980000050136004770000812739025020111602771810592095360051700006066330280201115923577000004443600664000090064502202011164131430439744436002730000771845022090111571025610592073360022600007589350270801115796319))
 (.node 1 (.leaf 10206444360083600008846410240201116082860105924443600207000059634102409111159603080743944436007660000889041024090111628596810592081360051700008724550180911115805639105924443600585000090486501409111155082411059244436000720000903162515071111555041310592000360044206158820430231001115225076105924443600793000086193902508011160286590886344436004310000884641024081111898611910592444360077100008840390250901118914108105924443600704000088403902507111159919391059244436006390000904460016071111593376909604444360035700008227625150711113993068105926263600828000085413302810011154399971059244436007420766835539025100111571775606425444360070400008944475210711115028033)
 (.leaf 10592444360071400009006450220711116081579049634443600714130089955002007111144321901059210136004860000860741024071111838520610436444360066900008881525190711112688687032004443600623000002133000015010894654690310244436004860000000030000150109300480201559444360087000001417450221001115753335031864443600486000000003000015011134826720260144436008700000211145022070110037835302366444360097200001490450220701115710316016434443600949000014704502207011012475730000044436008450000111545022070111584104503610444360048600000000300001501100846641016434443600845000008864502207011157922250000044436008450000067043023070110233360900000131360079000000583450220701115858617)))
 (.node 2 (.node 1 (.leaf 452360079900001479450220701116630965038234443600777000015184752107011033441000000044436008450000099245022080111619507303553444360090700008729430230801103844478018074443600623000008036001607011038834811059244436007040000442145022080111666277000238444360080700004359450220101104358276000004973600623000011476001607011038264240078644436008700000061545022070110495190205126444360084500001348430230301116155155000004443600835000028694502208011150162880000053836006230000073260016070110454107400000444360027300001085390250701116498994004204443600845000004684502203011055851850467744436008450000052139025030110622072800000444360002600002532350270901104707657)
 (.leaf 5126444360052800005774450220801105910321000004443600865000039915501808011057479961059244436008621818886655018050110677342802364444360080701411542450220701107161345056974443600836000011804502203011162867830000044436008450000229345022030110727008910592422360080736187766525190501108051999000004443600558000049654502205011081383000000044436006980000077445022030111700614801404444360068200005292525190101116985067105921613600828104387104502214011176562800512544436008071561717445022140111717698106814444360082510258853450220501108669299000006263600002000001054502207011168907040512644436007420000850139025050111663874510592161360082832657658475210501108852565))
 (.node 1 (.leaf 4256444360068900004676600160101109261048105920683600686218084713702612111175853381059244436007662857869741024121111742752302445444360077124766637390251201116132021072374443600766000088854502212011173200000992144436008323801900747521140111619727003343444360000000003788450220511117066471050004443601141000077204502207011172932020587244436008280000889847521121111608333510592134360068913998783430231011110258424105924443600486103742354502210111096276550512644436007711388569131029140111560773005611444360070900005241390251011109839289042024443600879401051024752101011101161501059200036007773734632652519120110982181807910444360082400988569430231011109850052)
 (.leaf 10592444360083502338781450221011110527235000004443600882054733164752110011156029931059206936008252482872647521120111030565710592000360077900008872450221001110232404105924443600803000077125501805011159159970355444436008320000294445022100111816121705125444360083703948192410241201110696496080594443600979000086793902510111113107560914844436007770000893047521101111831287310592219360080327187550450221201112169122048404443600627088388724502210111159392151059208843208352707897645022120111837026108064444360081900008978500201611112521163080644443600613000088004752116111118725801059244436008371270699745022140111839855910377444360077100009004700121011118781062))))))
 (.node 16 (.node 8 (.node 4 (.node 2 (.node 1 (.leaf 10592106280046713448914500200711118363997105921873600836000079644502210011185468801059206636008240000497445022071111553511906611444360003300003489450221001112380058105920003600293082184083902516111126946671059206536008071228816045022080111345806200000444360081912165493450221201113168485105924443600825278323104502208011162390971049244436005670000878041024161111856930809809444360077900638685370261611113542483011994443600028000029694502210011156104641059236836007710059500847521071111364820710592111360025705348987475211211114717484000005833600000000022104502210111129021631059244436000690000889260016161111611952000000444360018300002362430230501115696409)
 (.leaf 10592218360063408418988500201201119230124105924443600170000089444752107111161048640394344436006050000383641024050111577585404224444360060505127935350271201115122778105924443600019000088636751316111153335231054244436008070000867037026121111593374410592444360001900008970675131611116502257105924443600824016882233902514111159402571059244436000190000903770012161111559619310592444360013600009029525190711116062975000006263600807000088695002010111166161471059200036007791369846135027101111671399910592305360036600008929500201411116065502105922153600413000083654752114011149889581059228636004770000898560016080111565663603554444360077900008803430231001116231231))
 (.node 1 (.leaf 10592000360044200007442310290801119560746096044443600136000073764752108111158802771059230236007190000872737026101111606562909604444360068200009017450220201120404385047204443600486000090124502202011158752671059222536007090000882539025020111637365700000444360062700009017450220201120843075000005624070686000089204102402011163619431059244436002470000884657517020111528477200000444360079300009017450220201118252021051254443600134000088815251909011193942300000050136001920000791155018020111568912110592095360029300006829370260201116011992000004443600613000086463902502011164171741059260436004670000517231029080111598605704397444360017600007844525190901115638905)
 (.leaf 10206444360068600007344410240201115904401105924443600060000054554302309111160261790743944436006640000881441024090111596726110592081360056700008325410240911115302724105924443600567000090486501409111159721001059244436000330000901560016071111595037910592000360046702868853450221001114006547105924443600771000088904102408011190765440886344436003490000881647521090111518994810592444360074200008920410241611115774891105924443600617000090496501407111188702660960444436003660000532062515071111582623910592626360082400008359310291001115514126105924443600423031071744502210011157913900642544436004500000891547521071111964406810592444360071400008986450220711116141019)))
 (.node 2 (.node 1 (.leaf 10592101360036600008548430230711112627639104364443600689000089255751710111161608470000052136010030000294430002080110290459303200444360062300000213300001501089465469031024443600486000000003000015010930048020155944436008450000103745022100111540424203186444360048600000000300001501099163242026014443600870000024724502207011152748550236644436010480000141745022070110102371801643444360097300001465450220701116297402000004443600845000011154502207011018194150164344436007930000085045022070110160918803610444360048600000000300001501100846641000004443600845000006804502207011156593010000043036008350000147045022070110306580303823444360084200001518475210701103416761)
 (.leaf 3553444360085600008868525190801103750149018074443600623000007786001607011038285740000052136011410000271039025090110338885400238444360080700004270450220101104553220000004973600623000011476001607011042006860078644436008700000144345022070110489596505697444360070400002530500200801104847819000004443600157000008054502207011157005390000053836006230000071960016070110456696705126444360084500001264410240301105456800004204443600845000005004502203011056750410467744436008450000087439025030111576976005126444360068600005899450220801105879085000004443600999000034534302308011057260701059244436008253335776457517050110741298605697444360080300001180450220301116428455))
 (.node 1 (.leaf 2364444360080700001547450221001115871991096534443600824417477675002014011163963870000044436007900000126145022030110750477401404444360050500005099550180801107792746000004443600656000052594502205011079456280000062636000000000019945022070110792933305126444360070400008526410240501116817472105921613600828291088155002014011088370350681444436008530703887245022050110864021305125444360078205117323575170501108470187042564443600689000046176001601011174384751059206836006891473846135027121110941677010592444360066406428698430231401108897220024454443600828231661113502712011093113890723744436006210000897752519120110960444103343444360000006243236450220511117191143)
 (.leaf 5000444360114100007235450220701109515085058724443600689000089565251912011161195810512644436007930000656245022050111586842510592134360070931688764430231211116589848105924443600505027840264102410111158677970561144436007710000588347521101111021085204202444360089840895173450220101115709500105920003600704304264574752112011098732480791044436008280000890345022101111709515010592444360083500008710450221011110697562105920693600777131779144302312011107081961059262636007770842888545022120111041937500000444360084420093963475211011117522789035544443600828224139524502210011160767361059244436007770000668355018050111751482505125444360064300005118410241201110567855))))
 (.node 4 (.node 2 (.node 1 (.leaf 9148444360052800008728410241011111240040080594443600858000088834302310111114685330484044436006640000878145022101111618329610592444360083507508916450221201112018249105922193600777207776024502212011161739850806444436008030000903960016161111830885008064444360068200008833500201611112013344103774443600771000090117001216111126203321059244436007904169729745022140111348613410592000360060506048973625150711112555526105921873600824363176354502210011184504190661144436002570000312145022100111804857410592066360082500005865450220711112531480105920003600341000082624102416111186696281059206536007790577796445022100111318302900000444360070415488192410241201115967778)
 (.leaf 10592444360078235662310450220801113904774104924443600704173386953902507111157706710980944436007770542857737026161111578056110592368360079900597496450220711113783922105921112660384000087783902512111144070910000058336000000000192545022101111319805401199444360028300003031450221001115729426105924443600072000090276001616111164311121059221836008190296899345022120111477737700000444360022601783421410240501118986670105924443600682000089444752107111148057210469744436005760175313135027050111587731204224444360065600007325370260201115245477105924443600019000088636751316111155051481059244436008460611829539025141111609592710592444360001900009028700121611115876299))
 (.node 1 (.leaf 10592444360011600009041575170711115533382000000003600835000088364502210111171007831059200036007900690846135027101111633256910592509360033400009036600161411119826017105922153600144000082584502214011156135610355444436008320000878041024080111620037010592000360042300007824370260801119587389096044443600207000070104752109011157268051059230219106340000864639025101111602183104720444360048600009017450220201115803474096044443600848000089204102402011163975590000044436007930000898143023020111660490700000444360080300009017450220201116977695105924443600467024389056751302011153876720000044436007140000898143023020111643848110592380360061300008553390250901115948958)
 (.leaf 444360070400009017450220201121938256000005013600467000075944102402011189809551059209536004670000679833028020111604647300000444360056700008872450220201116108629105920733600467000044813102908011157058810439744436001830000786957517090111555123210592444360025700008636410240911116104723102064443600799000088144102402011199625650743944436006640000884641024090111617957110592081360022620055883475210911115171046105924443600592000090476251509111151808551059244436004130000902662515071111512082110592000360036600008683410241001118601395105924443600790000086793902508011160218770886344436003070000870852519090111660091110592444360066400009033525191611115146471)))
 (.node 2 (.node 1 (.leaf 9604444360034900008468600160711113882133105924443600698000090285002016111147477511059262636008190191839233028120111587281710592444360074215097202430231001113342457064254443600714000089684752107111195524291059210136006690000891352519071111592828310436444360064300008801450221011115920335032004443600623000004063000015010894654690310244436004860000000030000150109300480201559444360087000000543450221001098722666026014443600870000017404502207011151804760318644436004860000000030000150109916324202366444360094200001435450220701116126000016434443600845000014434502207011012889250000044436005400000103845022070111567969601643444360034900000831450220701115864758)
 (.leaf 3610444360048600000000300001501100846641000004523600799000014794502207011161893820000044436008450000067043023070110253113603823444360085800001489475210701115815216035534443600871000088665501808011161414710180744436006230000074760016070110353270500000270444114100004076390250801103605998002384443600807000041254502201011049746120000049736006230000114060016070110459213100000444360074200000644450220801104692936007864443600870000013214502207011048027400569744436007660000259745022080111638580600000538431062300000719600160701115697023051264443600845018214534502203011053699700042044436008450000055745022030110505947704677444360084500000770390250301106234829))
 (.node 1 (.leaf 5126444360055800005544450220801106080852056974443600742000012454502203011062405550000044436009170000442441024080110596053010592444360079305877516550180501116248934023644443600807000015594502210011158916260000044436007930000121745022030110747406501404444360050500004990500200801116182760000004443600627000055334502205011080346080512644436006340000874945022050111774662100000626360000000000470450220801107858623105921613600828313488014502205011086257900681444436008560323885345022050111786524805125444360071908627116450221401117398734042564443600689000045556001608011089486531059206836006892453851437026121111794991910592444360080704728333350271401115809548)
 (.leaf 2445444360080331546892370261211115891481072374443600669144889145002012011097142110334344436000000000285845022031110895894610592444360080729168968475211201109666468050004443601141000073584502208011158592990512644436010970000592837026050111724805910592444360004806124016450220511109435620101414443600686074387484302310111168030181059201836007790268752345022101111018376010592626360069834487630450221201117561518079104443600848165886644302310111154799251059244436008350000871045022101111060801710592000360079939207997430231201116507094105920003600766084287104502212011106793690000044436006010000539352519101111083492810592444360081922525477450221201111109074)))))
 (.node 8 (.node 4 (.node 2 (.node 1 (.leaf 5125444360036600925231430231201110738632091484443600742000085163502710111111128040805944436005760000901462515101111761994704840444360060502188820430231011116434928105924443600832157388854502212011118025580806444436005170216852835027121111195498210592219360077927487574450221401116107780080644443600928000086684102416111179302371037744436007190000896067513071111856101910592444360068202086939450221401119210310105920003600782000090296751307111160277481059206636007140000440845022071111564439010592187360082420448258450221001112615431066114443600423000047764302310011124484341059200036001980923862041024161111882406410592000360022617598219430231211113725440)
 (.leaf 10592444360070904332310450220501116095259104924443600742019287253902507111182228221059236836007990000749645022071111376202100000583360000000002063450221011113414803105924443600025000090056751316111166072470119944436006170000259645022100111552179910592218360079900528986450221201114723917054464443600477000040633502708011159848231059244436008030000865337026161111890690004697444360058500003615370260501115896107042244443600293000060323502702011151179621059244436000190000892167513161111573275910592444360083713268501390251411119259431105924443600019000090527001216111168421681059244436000690000904365014141111592864700000626504070901567929600161011115932231))
 (.node 1 (.leaf 10592000360081911428288310291011119552235105923053600164000088644102410111198552860355444436008480000860741024080111986352910592215360016400008160450221401115528316105920003600431000083655251908011159868060960444436002930000770662515090111579391010592444360071900008796390251411120114585047204443600486000090174502202011157762480960444436008560000884039025020111608156500000444360083200008981430230201116673985105924443600450000089226501402011152250230000044436005170000902347521020111660529810592380360064300008498370260901115900820096044443600486000076314302302011191027831059209536004670000659431029020111589936700000444360068200008650410240201116212547)
 (.leaf 10592444360035700007656525190901115697148105920733600207000054404502208111190939331059220336002260000878343023091111932736010206444360070400008846410240901116671296105920813600100000057244502209111194300161059244436004500000904460016091111935919610592444360043100008995550180711115894863105920003600467017284253302810011144814601059244436008030000870939025080111618851908863444360052800007853390250901116672710105924443600623000090446001616111154573650960444436003661550601362515071111565283310592444360062300009047625151611119342631105920003600824143084403302812011161988730981344436008460990852337026100111559248806425444360071900008876410240711114006296)))
 (.node 2 (.node 1 (.leaf 10592101360059200008441410240711118214085105924443600366000066973000205011176943760320044436006230000018230000150108946546903102444360048600000000300001501093004802015594443600858000013644502210011159572190318644436004860000000030000150109916324202366444360087000001396450220701115577407016434443600845000014174502207011010004820000044436008650000126145022070110180713101643444360071400000714450220701101446937036104443600486000000403000015011008466410000045236008320000137945022070110273022503823444360085600001479450220701115970638000004443600845000006404302307011158895670180744436006230000077860016070110343554500000444360087900008870475210801116371128)
 (.leaf 444360114100004200390250701103777684002384443600807000038984502208011162991740569744436007770000245755018080110458636100000497360062300001116600160701104340281000004443600592000005734502207011044982860078644436008030000130045022070110503628805126444360084501821435450220301105243281004204443600845000005294502203011051187570681444436008450000042539025030111700940010592444360087900007791550180501106934386051264443600656000055434502208011062389450569744436008030000121745022030111634959000000444360083900005489390250801116113513000004443600639000011994502203011165197740000044436003490000577245022050111731232605126444360064300008693450220501108475674))
 (.node 1 (.leaf 626360000000000576450220801107978709105921613600828000088014502205011080873960681444436006640862871045022140110941431305125444360074217497370550180501117379944042564443600689000050726001601011091792681059206836006391486844735027121110975030110592444360080321388151290301201108876900024454443600807010949663702612111171530460334344436000050000316145022030110893318410592444360080700008929500201201116094682051264443601159000058533302805011168168161059244436001643313439545022051111585866810141444360066404298803430231011116559595105920183600709277173054102410111098176711059200036007192774572445022120111013800510592570360083500008665450221011110644899)
 (.leaf 10592000360071421528635430231201110794448105920003600937410589154752112011165112441059244436006230229602947521121111592669410592444360083500005251450221001110833735051254443600782053386364102412011108190200914844436006210000861337026101111128925104840444360060510148820430231011118792956105924443600824088375504502212011115086070806444436005170000870939025071111223972510592000360079021677660450221201116097759103774443600634000089246001616111132982051059200036006560000898267513071111256341610592444360068907237116450221401112858461105920663600807000056624502207111123853631059231736007092470809745022100111835408006611444360036600723079450221001112363529))))
 (.node 4 (.node 2 (.node 1 (.leaf 10592000360018600008620410241611118601398105920003600100154075904302307111161115641059244436007791587231045022050111398598510592368360080700006966450220711115918253105924443600019000084727001216111194081470000058336000000000304845022101111350528701199444360033400002596450221001118542864105922183600807129489934502212011149156540544644436006010000340235027080111449976210592444360096600008727370261611115382860046974443600450000042503102905011160394890748144436000180173552337026020111510356610592444360001900008990675131611116280513105924443600837004082233902512111158464111059244436000190000905270012161111706156310592444360005500009043650140711116290727)
 (.leaf 626360077900009008500201611116206576105920003600858069583223102912111160504101059230520007040000845839025101111643145603554444360084600008546370261001116050502105922153600341000081394752114011153919591059200036004310000815652519080111600894109604444360034105617734600160901115925915105924443600442000089764502214111201415540960444436007190000892041024020111636864900000444360070400009017450220201116534271105924443600307000989226501402011188811240000044436007820000901745022020111659316909604444360048600007685430230201115518093105920953600467000068723102902011158960370000044436007660000892643023020112064341210592444360060500007385430230901115784619))
 (.node 1 (.leaf 10592073360038400007226390250801119123961105922033600357000088515002009111192743861020644436007930000879941024020111642367210592081360017004948596430230911119351837105924443600477004190396001609111153320251059200036004670000861939025100111578254310592444360077900008742390250801116207871105924443600656000090285002007111158969371059244436005920000905270012161111398632510592094360036600005717625150711113314255098134443600825000087124302310011157874720642544436007190000897747521071111664836010592101064062300008635430230711112609213080594443600232000066973000210111144816041059244436007040000669730002120111580306003200444360062300000235300001501113482672)
 (.leaf 3102444360048600000000300001501093004802015594443600870000005434502207010989177330236644436008700000141745022070110017606603186444360048600000000300001501099163242016434443600845000013794502207011009200490000044436008580000130045022070110188553601643444360084500000805450220701115874225036104443600623000002323000010011133255680000045236008190000143545022070110279561100000444360084500000680450220701102441102018074443600623000007876001610011035472220000044436010850000424643023070110419056800000444360071901958923625150801104604639056974443600664000023455002008011161796890000049736006230000111660016070110422992400000444360047700000558450220701104380968)))
 (.node 2 (.node 1 (.leaf 786444360087000001976450220701115909666051264443600845000013794502203011054215780042044436008450000045145022030110528777406814444360084500000770390250301116737732056974443600704000013394502203011059824011059244436008720800776652519050110725352605126444360069800005364450220101106153422000004443600782000012834502203011066756800000044436008450000507645022050110844008605126444360068900008775500201201108363092000006264640004000006094502207011079839371059216136008280875892852519050111580010404891444360064310158665450221401116525231050404443601032000063764502201011090399680512544436007900000740143023120110872690110592068360077930248477350271411116519716)
 (.leaf 10592444360077736818306310291201109055372024454443600819030648223702612111087583160334344436000160000357345022030110897259710592444360064300008993600161201109902026105924443600014028725374502205111092584241059201836007140000699037026101111627569610141444360079304258679390251011118598159105920003600771328960364302312011103512401059257036008280414861445022121111056546310592000182070420248528450221201117718527105924443600837000056484502210111177170601059200036008671505899652519120111613468210592444360066430295943550181211110744046051254443600183000046514302304011159315130914844436004000000862537026101111602256204840444360050500008633390251011118867333))
 (.node 1 (.leaf 10592444360082439757523450221201111820898080644443600689000089674502216111125744191059200036007662539752345022140111848109110377444360070900008982675131611113336335105920003600779127090346751316111160463721059244436007192505760245022120111260195010592066360079900004662450220711112320178066114443600207092767764502210011154197531059231736006561309816045022080111320296610592000360019200008123370261611113218433105920003600007000079344502207111159725451059244436007140544231045022050111903895710592368360079900007496450220711114418013105924443600486000086676251516111195751390000058336000000000362645022100111349769201199444360000001844577450220501115805722)
 (.leaf 10592218360082426938944450221201119797759054464443600623004937244102405011186026320748144436001640402509435027020111497048804697444360054000004031350270801119363606105924443600019000089606751316111161098131059244436005670279832541024140111588540900000626360038400009039600161611115671998105924443600032038185035751707111169582251059244436000190000904470012161112076018110592000360082500318268310290711115796906105924443600366000088475501810111162873450355444436007820000850139025100111600513010592215258068200007498430231411119472563105925923600592000087804752109011159128381059200036004670000738333028080111586167810592444360043100008957500201411120306809)))))))))))))
 (.node 64 (.node 32 (.node 16 (.node 8 (.node 4 (.node 2 (.node 1 (.leaf 9604444360084800008981430230201116844491000004443600837000089204102402011165218621059244436004230000893567513020111544259500000444360061300009023475210201116682794096044443600486000073793902502011157236221059209536004670000693031029020111585756400000444360063400009017450220201117281052105924443600366000066553302809011157330991059207336004670000716035027081111571691710592203360028300008668410240911115740518102064443600771000073173902502011161061901059208136004770000870852519091111958833610592444360041300009041575170911115211255105920003600467000088534502210011155330531059244436006820000848845022090111477588210592444360076600009017450220711119030480)
 (.leaf 10592094360044200005863625150711118371976098134443600790108886784752110011157266220642544436007140000882539025071111664783510235444360066900008708525190711112709968051264443600928000066973000205011166878151059244436008710000669730002120111568735003200444360062300000305300001501113325568031024443600486000000003000015010930048020155944436008700000141745022070111568129402366444360087000001443450220701100044661031864443600623000000403000015010991632420164344436008450000143545022070110092870801643444360082500000680450220701101163362000004443600849000014174502207011019516480000045236007820000142745022070111582022500000444360084500000630410240701115943116))
 (.node 1 (.leaf 1807444360062300000803600161001103656653002384443600634000031164752108011042908100000044436009820000431952519070110392377600000444360077900008924600160801104374254000004973600623000011076001607011040904510000044436004770000064445022070110433238905126444360084500001396450220301105367857004204443600845000004814502203011162381310681444436008450000074039025030110535834805126444360082400001261450220301116644718105924443600807000076845251905011159920190512644436007090000572845022080111638885900000444360071900001283450220301115446778000004443600845000050214502205011174910450512644436007040000882950020050110852895700000444360000001161355450220301108017294)
 (.leaf 4891444360086715618853450220501108765690105921613600828289676304502205011085489460504044436011590000563433028010110958557305125444360070909947321430231201108560257032904443600771098483783302814011164768411059244436007423667812337026140111746939002445444360083200005376330281401117359302051254443600273000048264302305011091926461059244436006860000883447521120111791827100000444360006009213003450220511109355213105920183600777000090177001210111106173071014144436006980422869741024101111690987110592000360068941587630450221201117693537105925703600825000086144502212111106598740972944436007903259876443023120111064350010592444360082400005690500201011117733404)))
 (.node 2 (.node 1 (.leaf 10592000360079317578977525191201111018191051254443600477000054554302305011108727760484044436005670222872841024101111203868608064444360077900008944450221611112627032103774443600664000088495251916111186699921059200036007900000741745022140111228633710592000360079327179020625151611112347865105924443600742365576304502212011127126631059206636005171574478050020071111539945106611444360051700005343430231011112232220105923173600643369180364502208011134621291059200036002150000822339025161111301760710592000360023214498488450220711113432584081774443600825314589574502208011150321191059244436003840000859643023161111502548710592368360080700008020450220711114769847)
 (.leaf 583360000000003656450221001118220649011994443600000000028843502705011154730121059221836007661520895745022120111544932305446444360068200004687390250201114331558074814443600844000073894102412011193728631059244436002150000892362515161111604031904697444360068200005002350270201119284659105924443600799003886074102414011158790420000062636003490000890960016161111534504610592444360001900009048675131611116814061105920002190862026983182903007111160120600355444436007140000876345022100111575827410592444360071400008905410241411116081935105925923600771000086463902509011159539521059200022704310000784547521080111597669510592444360041300008976550181411116248745))
 (.node 1 (.leaf 9604444360087800007881430230201116878110105924443600384000089706751314011189925001059209536004670000698231029020111589071200000444360070400009006450220201116497468096044443600486000077184502202011160412910000044436007190000901745022020111722904410592444360061700006889310290901119296921105920733600467013570003502708111158033731059220336003220000620241024091111544731610206444360070400007718450220201115942363105920813600144000086364102409111196351001059244436004130000904460016091111596249410592000360046700008885450221001113928909105924443600617345587454102409011160356631059244436006640000903755018161111414927310592094360058500007323575170711113862163)
 (.leaf 9813444360078200668799500201001115772604064254443600714000090014752107111160955221023544436006890730877955018071111884995010592444360088200006697300021201115719800031024443600486000000003000015010930048020155944436008700000147045022100111528472302366444360087000001417450220701099929406031864443600623000002263000015010991632420164344436008450000144345022070110082126801643444360051700000714450220701115976232000004443600845000014904502207011159212790000045236008250000147945022070111507873900000444360084500000698410240701102494271018074443600623000008036001610011035523750023844436006690000337347521080110425238500000444360086500003517575170801115831076))))
 (.node 4 (.node 2 (.node 1 (.leaf 444360083900008849525190801104419595024264443600623000010976001607011158404910000044436002320000080545022070111613245000420444360061700000451450220701104862945043974443600845000007163902503011054832480569744436007930000751655018050110610078505126444360051700005424450220801105732174000004443600836000012834502203011071612400512644436009440000877745022050110871228100000444360000000001372450220301117013562048914443600682051788364502205011165311021059216136008281762773755018050111622586705040444360115900004401330280101109863651051254443600714000072024302312011087287580329044436007420000843735027140111772346710592444360070438298567390251401117517948)
 (.leaf 2445444360070403096322390251401108913220105924443600682000089304752112011097047260512544436004670000674343023050110914285400000444360033421357727450221001109414849105920183600779043289826751310111102185191014144436006230000872943023101111660222610592570360081900008528450221201116291981105920002390704400957884502212011157468340972944436008073843863543023120111064890110592000276079916788710450221201116085806051254443600824000084414102412011160630521059244436007710680579455018121111075796910592000360054900008885450221011118589513105924443600858113357103102912011158253980806444436008370000896745022161111240931610592000262068916267602450221201116205887))
 (.node 1 (.leaf 10377444360047704798831550181611112535007105920003600790007990136501416111182278581059244436007901257757445022120111842524506611444360066435887480430231011112426992105920662710605032446165002007111153052991059231736006860577737545022080111319455210592000360023200008488450221611118361201105920003600366000084083902507111159063001059244436000130000863543023161111409785310592368360082400008438450220711115079133000005833600000000027614502210011134091360119944436000000000396637026050111839817310592218360074215888836450221201114719307054464443600682000037783902508011158783241059244436008650000881550020161111544835807481444360086515668117410241201116338595)
 (.leaf 4697444360047700005835350270201116158893095974443600846003786074102414011161423340000062636001700000889065014161111530247710592444360002400009051675131611116494564035544443600799000086565251910011191431451059259236006980000850435027090111978557209604444360058517317437370260801115915125105924443600192000089875501814111155672840960444436008030000898143023020111641443810592444360046700009018675131401115663230105920953600477000071223502702011194916050000044436007770000892041024020111639534409604444360048600008052390250201115856451000004443600656000090174502202011205095281059238036003070000827435027090111576551910592073360046705667174350270811115862200)))
 (.node 2 (.node 1 (.leaf 10592203360014400006075430230911115620928035544443600709000078444502202011161913221059208136004000000862255018091111525616810592444360038400009048650140911119367896105920003600467000085233702610011159252261059244436006340000893145022090111921925310592444360059200009052700121611118477446105920943600714000070754752107111183566010981344436008071202842837026120111596761606425444360071400009008500200711119309775102354443600664000087435002007111160434560310244436004860000000030000150109300480202366444360087000001427450220701099952333031864443600623000004003000010011133255680164344436008450000048145022070110150810903744444360086200001542450220701101287538)
 (.leaf 452360082500001551450220701114299461000004443600845000007144502207011024670960180744436006230000075660016100110360826400238444360074200002097475210801104378390000004443600856000088465751708011048006300000044436008070000093645022070111637169802426444360062300000747600160701103809696004204443600558000004164502207011051797840439744436008450000077039025030110569680105697444360091700007715500200501106412503000004443600807000051164502208011163516920000044436007190000133945022030110688080605126444360104200008829475210501117676365000004443600000000025894502208011080210490489144436006890000887245022050110883189410592161360082840737629475211401108842229))
 (.node 1 (.leaf 3290444360074208468268310291401108809727050404443601159000043833302801011093124060512544436006862381711645022120110895963510592444360068917368885450221401108834894105924443600048000050784502205011158488601059244436006390000895555018120110970625305125444360017000006936450220501109025974000004443600215000046054502210011168049761059201836007420000895360016101111010979310141444360061702338729430231011116302801105921723600807000083174502210011106148401059200036007423981607145022120111583134009729444360083227338801450221201115641491051254443600585000080804302312011108844171059244436008030000597250020101111076735010592115360077119038914500201201118288841)
 (.leaf 10592000360055802238967450221011118849099105924443600824329471753302812011179340740806444436008370000895745022161111844114610592000360068600009002575171611118519069103774443600777085288704752116111123782651059244436007422535231045022140111270957306611444360063903255440450221011118090076105926263600450112950295002007111154199151059231736006861643773045022080111310161310592000360028300008488450221611118633284105920003600384089987484302307111160368781059244436000170000859643023161111388629910592368360082800008090390251011119299661000005833600000000024534502205011158857930119944436000000000340637026050111558771010592218360074215208916450221201114420304)))))
 (.node 8 (.node 4 (.node 2 (.node 1 (.leaf 10592444360056700008910575171611116300534054464443600682000035353902502011157714300469744436006640000654337026020111512649809597444360084904928697410241401115960935000006263600060000089906751316111193936321059244436000600000904260016161111625389003554444360080300008924600161011115776109105925923600664000087284102409011196575960960444436006050000801039025080111587541909604444360080300008981430230201115931563105920953600505000072193702614011160368561059244436004860000833967513020111568113600000444360080700008890410240201119690279096044443600486000080174102402011155825690000044436008240000901745022020112004052610592380360043100008498370260901119244551)
 (.leaf 10592073360050500007137390250801115823212056974443600849000074694302302011160329561059220336002570000572341024091111563538310592081360003300008008350270911115783505105924443600549000090355751709111163282271059200024004671580723231029120111634453210592444360060514558711410240901116199459105920943600714000052764752116111132150640981344436008240804822033028120111588717404963444360071400009007475210711114553135102354443600689000088495251910111212771991059244436004000000901730002161111525740903102444360048600000000300001501113722576023664443600799000014174502207011001197920164344436008450000041645022070110151945803744444360086700001535450220701114862878))
 (.node 1 (.leaf 2675444360077100001556450220701115015448000004443600845000006404302307011021547660180744436006230000073960016070110356338500000444360082500001524450220701104546191002384443600704000018434752108011044802080000044436007420000889260016080111552724402426444360062300000739600160701103627263004204443600793000004514502207011049866070439744436008450000119539025030111516027705697444360071900007791550180501106397064000004443600782000055214502205011062036090000044436006860000130045022030110669937505126444360098300008150500200501108859916000004443600000000021524502208011160021910489144436007930523883645022050110881169510592161360082834457598500201401109127181)
 (.leaf 3290444360070908468479330281401108762121050404443601159000044013302801011163342391059216136006561274709043023120110887868910592444360062109948833500201401116033648105924443600192099442574502205011093496031059244436006560000892950020120111766629105125444360019802956049430230501117256545000004443600000075708674502201011085380511059200036007190597768550020101111619235510592172360082405478763450221201110496725101414443600621000088464102410111160139921059200036007793926642645022120111040707105125444360043122525614430231201117800892105924443600836000051024752110111110743231059211536008032275893047521120111119457810592000360050515548876410241011112189667)))
 (.node 2 (.node 1 (.leaf 10592444360084540716895270311201111865263080644443600807000087985751716111126852221059200036006270000894350020161111618642310377444360076600009001600161611115798329066114443600028020562984502210111123935961059231736006820817789745022080111862953410592626360022102005464525190711117984735105920003600413090688344752116111139467921059200036000640665902757517071111359041410592444360027300008568410241611116093810105923683600856115780902903010111160638930000058336000000000259645022050111371696601199444360000000003365410240501118350327105922183600742029489154752112011148392691059244436008530000887245022161111495286305446444360068200003535390250201115863364)
 (.leaf 4697444360059200004488350270201118831499095974443600828027586834102414011163412030000062636000240000903960016161111558124010592444360006000009027600161611116399725035544443600825248389255751710111159396831059210836008360000860539025081111578148104720444360045000008968475210201119337849096044443600682000088253902502011157444770628144436004860000756941024020111598487310592444360038400008400575171401115503202062814443600486000089314502202011157235900000044436006890000901745022020111617232410592380360062700007302390250901115922531105920733600558001172644302308011156820831059220336004000000585639025091111532921105697444360054000007444430230201115960763))
 (.node 1 (.leaf 10592081360059200007724550180911119012186105924443600585000090446001609111152164130140344436004671366702131029140111619205110592444360063400008916450220901119302909105920943600714000051964752116111134505230496344436007140000899447521071111445462910235444360068900009009575171011112423728031024443600623000000003000015010925045580236644436004500000133945022070110066477901643444360084500000774450220701116140073026754443600836000015354502207011005909761059241136008450000064739025070111575133001807444360062300000771600160701103283976000004443600848000089164502208011160704370000044436008350000152445022080111581487200238444360062700002032475210801115434388)
 (.leaf 2426444360062300000739600160701103812896004204443600477000004264502208011160978760439744436008450000123839025030110508007405697444360081900007787600160501115702138000004443600790000065484502205011062422590000044436008350000121745022030111557870305126444360087900006821650140501108527027000004443600000000018394502208011163073261059244436008370000885345022050110894059505040444360111200005922390250801117462469105921613600828000077895751705011092754880329044436008460316840631029140111634329710592444360063908468916450221401117657951105921613600682066769774302312011159708541059244436000143364522145022050111798720410592444360084600007769450220101109429113))))
 (.node 4 (.node 2 (.node 1 (.leaf 5125444360002700005772450220501109166026000004443600000000035054502205011085934951059200036008360000901170012101111000761010592570360083500008872450221201111088699105920003600779388859304502212111103375561014144436007662965876139025101111586756905125444360068900008799410241201111053889105924443600879039449234752110011113393021059211536007993263886950020120111104734610592000108038409258618350271011118595160105924443600790422279104752114011161291661059200036007790000899262515161111838455308064444360079000008537650141611112222521066114443600247032761674502210111159442551059231736007423985231043023080111887362910592626360022100695321525190711115517426)
 (.leaf 10592000360062715328683410241611119216753105920003600540031286253702612111159957940000058336000000000330445022050111543220310592368360087008698288310291011118932224011994443600000000025754302305011183496551059221836007790178887245022120111626221410592444360069800008832525191611115976397054464443600682000036573902502011158995190469744436006820000492239025020111589970000000626502002700009008500201611119254803095974443600865003587454102414011164733691059244436002320000904867513161111605451006930444360071900008868525191001115958314105921083600825000085233702609111195501940472044436006430000900355018020111573418309604444360063400008761390250201115621657))
 (.node 1 (.leaf 6281444360048600009023475210201115642708047204443600293000089226501402011154130020000044436006690008901745022020111941608306281444360048600008613370260201115872383105920733600558035280414302308011191875711059238036004770000730239025090111601949805697444360048600007548475210201116107482105922032640293000059904102409111153343661059208136004860000794457517091111519703110592444360059200009033525191611114873666014034443600467230069553102912011150675061059209436007140000542947521161111370827004963444360071400008987475210711114685557102354443600621000088314102410111158487100310244436006230000008230000150109250455802366444360087000001443450220701100726001)
 (.leaf 1643444360084500001321450220701100825414026754443600799000015424502207011006191931059241136008450000071445022070111510582400000444360098200008837430230801116393801000004443600807000014654502207011041956380023844436007710000309847521080111604336001807444360062300000703600160701115914710024264443600623000007476001607011040506310042044436006170000042645022070110458057105697444360077900007433550180501105720455043974443600845000012293902503011152522020000044436006980141139645022030111577479000000444360040000004266450220501116224309051264443600964000067787001205011173499301059244436007770000888545022050110893069110592000360104100004935450220801108461751)))
 (.node 2 (.node 1 (.leaf 3290444360068206938695390251401116608431105924443600686101588854502205011166590191059216136008281413776457517050110897701810592444360071932878357430231201109015099105921613600803181672974502212011088426161059244436009340000782045022010111004220105125444360019800007094430230501109319300000004443600384028341664502205011169847261059200036007190000894155018101111620004710592570360083700968885450221201116326758105920003600779381957884502212111103641160512544436008580000886441024120111109935710592444360090112854496575170101111222527105921153600771358489435002012011159908950423944436007421275856433028101111149769210592444360082430196721500201201111683569)
 (.leaf 10592000360069800008846575171611112211446080644443600803000085156001616111115335900661144436001000000664145022071111275754210592009360085310162310390251201114019078105920003600221000057095251907111131827251059200017605402807874541024121111618103910592000360064300008695390251211116098629000005833600198000028584502205011136002781059236836008460057820531029101111872428101199444360000004134623390250501115679371105922183600704029387264752112011153020531059244436001040000872455018161111580208005446444360068200003406390250201115877838096044443600714016667904102414011150857201059200036001760000900160016161111586111709597444360085802728780410241401120349163))
 (.node 1 (.leaf 10592444360022100006476600161611119849771069304443600689148782804502214111196874301059210836007930000854637026091111595576004720444360086500008977475210201115736774096044443600819000090064502202011153111450628144436004860000878041024020111567455300000444360066900009017450220201115707688062814443600486000086834102402011156122051059207336005280000795241024140111583922510592444360048600007385410240901115826658056974443600486000077294102402011205387920414444436003410000594141024091111917577410592081360017000008098450220911115535240105924443600592000090335251916111158449810140344436004672492712529030140111644480610592094117048600005238475211611113989093)
 (.leaf 4963444360071400008988500200711114778961031024443600623000007733000015010925045580236644436008700000143545022070111644522601643444360084500001396450220701116085475026754443600790000014704502207011007672081059241136008450000073443023070110198372600000444360079300008915475210801115645848002384443600807000035764502208011028543160180744436006230000068660016100110339116400000444360082800001501450220701103788990024264443600623000007566001607011159328150042044436007040000042645022070110434053305697444360080300007683550180501105342289043974443600845000012293902503011061818620000044436007790000119945022030111563206300000444360084500004912450220501107689228))))))
 (.node 16 (.node 8 (.node 4 (.node 2 (.node 1 (.leaf 5126444360113300006616650140101108557984032904443600807000088724502205011178367641059244436006640323891645022140111791903210592000360115100004487350270801108254253105921613600828226277645751705011088515421059244436006861151533845022050111664391710592161360082526398665450221201108598646048944443601141000079474502205011100269150512544436000271864727045022050111752493600000444360071938157328450220501117328047105920003600837000089697001210111097860631059217236008250231876345022120111128752610592000360077931106234450221211115790256051254443600842070188834302312011108727130456744436008620533354055018010111110975004239444360093716578554330281011118330642)
 (.leaf 10592115360077137258815500201201111268920105924443600842000062473902512011112517421059200036008281402887047521161111794412108064444360083600008852475211611118333950066114443600004000061674502207111124004971059200936008390563231043023120111697456810592000360022105525777525191611115843698104924443600341219989955501816111186780251059200036005670540883743023121111618214200000583360019800002739450220501115733009105923682490862074783043302810111186755340119944436000190000457745022050111410487010592218360084409338885450221201116431355054464443600682000039863902502011158852770960444436006820000552241024020111576943610592000360006905948030675131611115345105))
 (.node 1 (.leaf 9597444360093600338440330281401116949352069304443600742000089204102414011161165581059210836006980000858435027101111603404404720444360090700008977475210201119598741062814443600486000089764502202011156149160960444436007090000899345022020111893943606281444360048600008712430230201119244727000004443600627000089814302302011157600831059207336005050000785939025020111918663110592444360047700007106350270201115622408024454443600486000089874752102011207161340414444436003340000572341024091111582745010592081360014400006203410240911115636862014034443600477304969522703112011165644641059200036000060000350147521071111603280910592444360071400008977475210711116514280)
 (.leaf 10592444360015700006697300021211116225775031024443600623000010373000015010925045580236644436008700000137945022070110122404401643444360099600001453450220701100829491026754443600836000013964502207011011784711059241136008450000072641024070110196976900000444360071400008687410240801115199467002384443600807000044144502208011147848460199244436006230000066560016100110340866000000444360079300001417450220701116184253004204443600742000004024502208011045980540242644436006230000078760016070110457943005697444360084400007685500200501116230712043974443600845016512933902503011166427090000044436007040000124545022030111663010800000444360083700005178450220501107775758)))
 (.node 2 (.node 1 (.leaf 1404444360115500006588625150101108710328105924443600719189988994502205011086014671059200036011590000434933028090111595493410592444360028300005477450220501108648572105921613600853251475695251905011086438541059216136007901816871045022120110835187304894444360110200007820450220501109822924051254443600627000070114302305011091695010000044436006563422824845022050111751076910592000360069800008942525191011116172334105921723240835000088534502212011164365260512544436008650701871141024120111587889010592000360077921278801450221211110762055045674443600639261641234752105011114881840423944436002930000842837026101111147229210592115360077936628678475211201111741830)
 (.leaf 10592000360085329368780410241211118239096080644443600807000087985751716111126786900661144436000260206642645022071111826088910592626360022100005709525190711115852949104924443600714127286463902507111188314601059200036004500650878041024121111610186900000583360063900003582450220201115899114105920003600862085183043302810111157746890119944436002150000316445022050111375227310592218360081917138764430231201115029124054464443600682000039863902502011158077050960444436006820000487543023020111503022710592000360002100009029675131611115904104095974443600879000081822703112011170223971059244436001360000665760016121111572272906930444360087000008655350270201115995263))
 (.node 1 (.leaf 10592108360070400005789330280911115986200047204443600908000090105501802011160441960628144436008350000898143023020111573150100000444360065600008981430230201115754608105920732210477000080634102402011155582361059244436004860000744341024020111569551802445444360048600008967450220201116336949041444443600605000058083902507111156677431059208136001980000817445022091111523779101403444360046717955209250320201116671833105920003600009000028474752116111142247041059244436007140000898850020071111345583010592444360084600006697300021201110963043031024443600623000010743000015010925045580236644436008700000133945022070111597758501643444360094700001465450220701100629921)
 (.leaf 2675444360084200001479450220701101782263105924113600845000006813902507011153205420000044436009990000325747521070110321709300238444360080700004543450220801102097218000004443600825000014654502208011036896790199244436006230000073960016100111520228200420444360079300000383450220801104739804024264443600623000007786001607011047595170569744436007040000776750020050111621801505126444360066400001354450220301116663915043974443600845000012383902503011063804640000044436005920000393645022050111618187901404444360105800006589525190101108332992105924443600836104388534502205011176890621059200036011590000565633028090110810103010592444360063408628383450220501116008871))))
 (.node 4 (.node 2 (.node 1 (.leaf 10592161360090829947520475210501108764494105921613600793011175744502212011083140610489444436010700000787445022050110996713800000444360083525767610350271201116125704051254443600832000076154302305011090978221059200036008371187899770012101111007691810592000360080725948710450221001116013032105920002500777332788825002012111114295030456744436006344132586445022050111648871304239444360030720478526410241011111350207105924443600689267687264752112011116905211059200036008070506855339025071111222746410592444360068238956678450221401117137507080644443600836000089154752116111160204710661144436006050076821943023071111855815510592000023022115278851500201611118913067)
 (.leaf 10492444360070401928820430231611114040065105920003600592000086993702612111159172300000058336006230000888545022020111501995510592000360086501818358330281011118854984011994443600186000038114502205011184290821059221836008531713874541024120111971029305446444360068200003986390250201118934385096044443600664000049213902502011155217571059200007700570000794667513101111912664606930444360087000008655350270201115484629105921083600709000060383702609111157918660472044436009200000894350020020111596341601403444360046702408083410240201115953436000004443600549000089814302302011158656051059244436005400000757543023020111624357902445444360048600008976450220201116134834))
 (.node 1 (.leaf 4144444360062700005606390250711115362968105920813600015000079783702609111148837250140344436006131044517427031020111535731110592000036021500004335600161611118410379105924443600709000063275002012111162369711059244436001570000669730002121111569499603102444360062300001045300001501092504558023664443600870000013004502207011001417620164344436008720000146545022070111605181602675444360085300001501450220701101696756105924113600845000007144502207011014175230481644436009370000229345022070110291549000238444360080700004560450220801102143117019924443600623000007266001610011152805240000044436007990000093645022070111625849700420444360084500000383450220701104607446)
 (.leaf 2426444360062300000778600160701104641190056974443600766000076874502205011149907410512644436007900000140243023030110581853804397444360084500001272390250301116594396000004443600845000048334502205011077192130140444436002830000512555018080111623866001404444360074227918818450220801108519188105920003601019000059953902509011080368461059244436004500000572445022050111605349710592161360084635577711575170501108920269048944443600846010874974102414011096852580000044436008360108648233028120111603312205125444360083600007778430230501117390807105920003600689325889565251910111164640680897344436007423685888447521121111119472204567444360060119824904450220501111493995)))
 (.node 2 (.node 1 (.leaf 10592000360080300008665450221001117924376042394443600307000087454102410111115552371059244436006270000732047521040111145548210592000215085629518539350270711118337317080644443600882000088685251916111157917740661144436008481525856739025121111837115710592444360063900008853450220711118874664104924443600742000086403702616111187265591059200036006430000867037026121111897348200000583360071400007731450220201116523704011994443600517000037783902505011157832211059200036008580845852337026101111478156108482444360085800488725390251201115976532054464443600442000040634102402011152169600960444436006820000368739025020111937845900000626360007200007926650141611115987262)
 (.leaf 10592108360068900008814410240911115471528069304443600870000086553502702011149700400472044436009040000891450020020111605069301403444360046700008117410240201116032656071484443600771000089674502202011166019130000044436006270000901745022020111615214902445444360050500009007475210201116293075041444443600334000058644502209111156104831059208136000190000793839025091111498160801403444360043100005349270311401119363153097654443600366000057676001616111148769361059244436007990322609341024121111614070710592444360089600006697300021201110334182105924443600157000066973000212111159746620310244436006230000095230000150109250455802366444360087000001379450220701100313655))
 (.node 1 (.leaf 1643444360087000001417450220701100730388026754443600853000015354502207011011437521059241136008450000071445022070110114415004816444360092800004588430230701115917566019924443600623000006866001610011151788760000044436008190000139645022070110357398200238444360080700004543450220801102394555056974443600682000076575002008011051693450042044436008450000035745022080110459955002426444360062300000795600161001104240979051264443600719000014024302303011055262010439744436008450392138743023030111652701300000444360083700004004450220501116747327014044443600134000051656251508011079847030140444436008710000880145022050111639276110592444360063900007297450220501117298579)
 (.leaf 10592000360063400005562450220901108454900105921613600828251477626001605011176110160000044436000270642664145022051111592504404894444360087700007874450221001117294243105920003600803000090066501410111100405710512544436008580000803343023050110927568908973444360077735338836450221211115551415045674443600842039846624502205011111597841059200036008350680876345022100111629870204239444360082510618967450221011111264931105924443600623000065655002004011114019300984644436008370641860435027121111607294108064444360092100008780410241611118350408066114443600621007886364102410111159948331059244436002210000899345022161111588012710492444360059206548955550181611113471826)))))
 (.node 8 (.node 4 (.node 2 (.node 1 (.leaf 10592000360055800008699370261211118991106000005833600634052789764502212011194223011059200036008373434896745022101111480469201199444360013600004623390250501115857878096044443600682000035344102402011159792450544644436006820000377839025080111594331400000626360022100007810650141411119412765105921083600686000057893302809111158313810472044436008780000896752519020111590589501403444360046700008175410240201115770995071484443600709000089524302302011199827890000044436006560000901745022020111615870402445444360048600009001475210201116533289041444443600069000087985751709111192106621059208136000210000822339025091111543121901403444360055834155861310290901114506216)
 (.leaf 10592444360069800009020625151211115898070105924443600486000066973000214011108065020310244436006230000058530000150109250455802366444360087000001354450220701116148449016434443600870000014274502207011005276700267544436008530000154245022100110134438510592411360084500000740390250701115760126048164443600929000014364302308011153682470000044436007710000093645022070111622974700238444360080700004442450220801102868797079294443600908000077145251908011053303190000044436006560000034545022080110439887602426444360062300000763600160701104328934051264443600845000013484302303011163820080512644436007790000141745022030111637433900000444360083200003892410240301106675273))
 (.node 1 (.leaf 1404444360085300006487450220801116975169014044443600686072988495251908011090423811059200036006340000384545022090110862348010592161360070930627235450221201108855197000004443600000000060824502205111158082630489444436008280000650143023080110886899010592000360077902919014625151011116256596051254443600865000081324502205011158186160456744436009341291809845022010111590637709846444360113106808406310291011115899336105920003600836000084283702610011162839761059244436006560925793445022140111622218209846444360087000008618350271011115997090105924443600682362566104502214011174751610806444436008850000900957517161111274597106611444360079911798262410241011116132941)
 (.leaf 10492444360051700008987475211611113499051105920003600413030387613902512111143259020000058336006130000888545022120111505743810592626022083720339006450221211119099443011994443600431005254483302808111189564250512644436006820000353441024020111936579205446444360064300394280410240201118899173000006263600257037564996501414111190156931059210836006820000855535027091111598537601403444360046700008967450220201115919802071484443600766000587783902502011161505270000044436006170000901745022020111985354602445444360063400008986450220201116420885041444443600682000060154102409111158282231059208136000210000711339025091111543948010592444360066413068665450220901114197849)))
 (.node 2 (.node 1 (.leaf 3102444360062300000617300001501092504558023664443600870000010654502207011155547090164344436008700000144345022070111495895810592411360084500000898450220701101486727026754443600853000015474502210011014976080000057936008370000147945022070110295450500238444360080700002480450220801114588695079294443600766170077375501808011161399110000044436005920000034545022080110422643302426444360062300000756600161001114392934051264443600845000013124302303011056607930512644436007820000136943023030110559023400000444360068600003850410240301106736261000004443600846000062964102408011168710000140444436007191066889847521080110898134510592000035063400003231450220901108557949)
 (.leaf 10592161360071923127273500201401108870201000004443600000000061384502205011157179280489444436006340000745639025080110921874810592000360082816629012675131011109559142051254443600862000079544302305011174293310984644436008370000851437026101111064568010592000360083600008711410241001111152644105924443600742254085684102412011161870710984644436008700914862835027101111570340210592444360063402195812330281401111430600080644443600915000089665501816111121296790681444436006820336831745022161111656364410492444360061700008883430231611113335344105920003600540018586403702612111192994210000058336006170413891645022140111470087701199444360059200004250310290501114287478))
 (.node 1 (.leaf 10592444360082809389023475211011115992167051264443600682000043354102402011159913300544644436006820000421339025020111901756900000626490006900006652650141011119047119105921083600709000084943302809111160849350140344436004770000895745022020111603115007148444360089000008920410240201116063258000004443600719000090174502202011161425780244544436006430000894445022020111632096904144444360064300006074410240911119528208105920811880192000053775002009111189378321059244436006820000885345022090111429004503102444360062300000213300001501113325568105924113600845000008504502207011016304440267544436008560000152845022100111513009700000579360083500001479450220701103244150)
 (.leaf 238444360079000003299475210801102736572079294443600558227679315751708011146216480000044436005280000034545022080110426722205126444360083601771396450220301105587538051264443600698000013694302303011057142590000044436008700000565031029080110701730900000444360084500003693390250301106556023014044443600837053588994502205011165877220000062636006340000292445022090110895665310592161360070939387395500201201115960167000004443600148000064954502205011168340170489444436006340000743539025080110868428410592000360077109369020625151011109584044051254443600867043979544302305111162060180984644436009170000595037026101111796433010592000360083700008097330281001117773835))))
 (.node 4 (.node 2 (.node 1 (.leaf 10592444360071415358080430231201111618220105924443600799246956673102914011158125440681444436008030337885345022161111291654608064444360092500008915475211611111719216104924443600771236386463902516111183126941059200036005172142866639025121111460984700000583360065600008763450221401114738114011994443600613000025733302805011158888800512644436006820000468639025020111595474205446444360064301614781410240211115893040105920003600025068986286501414111158169061059210810408360020861337026091111584364501403444360048600009017450220201116096827071484443600845000089524302302011159670110000044436006050000902347521020111634421802445444360070900008986450220201116443796)
 (.leaf 10447444360061300007602450221401115866566080754443600032000077864102409111191445181059244436006640000895745022100111465386009846444360076600006697300021611117057017105924113600845000008504502207011015540800000057936008250000146545022080110305853500238444360079300002807475210801102661599000004443600627000002964502208011158866530512644436007930000137945022030111562732505126444360078200001396450220301105737748000004443600858000057183302808011147387160000044436008450000374339025030111631123001404444360065600008975575170301108247108000006263600634000029244502207011179259040000044436008070000700945022050110826179910592161360068903097630450221201116715635))
 (.node 1 (.leaf 5126444360063400006279390250801108362773105920003600782079389955002010111162919710512544436004130000486443023140111792381209846444360108900005593290301611117960346105926263600837092082203302810011115584631059244436007713347871045022120111161829310592444360065638586585475211401117029811068144443600793021384414102416111157858020806444436009360000871141024161111570326210492444360077923148504350271611118233625105920003600366052889444502212111158885660000058336007660000887047521140111494563401199444360060100542881310290501115999175051264443600643000059344102402011157028480544644436006560000443439025020111606251510592000184046700006419550181411115428450)
 (.leaf 9604444360077900008555350270911116043619014034443600486023590174502202011159813210714844436008370237901745022020111597877300000444360070900009006450220201116572944024454443600686000089764502202011202451731044744436003660000880343023140111593358808075444360066900007713370260911115447257105924443600664000088714302310011144774950984644436004420000669730002161111715298310592411360084500000714450220701115766419000005793600825000014654502207011026393800023844436008070000305545022080110270055400000444360061700000357450220801104330422051264443600836000014354502203011055366630512644436007710000137945022030110544348700000444360087000005605310290801114050775)))
 (.node 2 (.node 1 (.leaf 444360043101212760430230301106589983014044443600639033589555501808011082283740000062647206340000277245022070111764852300000444360080700007009450220501108334519105921613600742257088184502212011156467791059200036007420803876341024121110949299605125444360085300008099450221401116135501105920003600836000083553902510011182065671059244436006341858668357517140111012719710592444360077130368726475211201111566878068144443600871062586663902510111157058930806444436009660000863339025161111159756410492444360071400008318290301611114775146105920003600517005589574502212111188242350119944436005280000239031029050111404945000000583360065600008694500201401116177324)
 (.leaf 5126444360068200005440410240201119547027054464443600698000071854102408011160080411059244436000220000897265014141111581410209604444360077100008392330280911116161089014034443600592085390124502202011158249120000044436006820000901745022020111637287702445444360070400008976450220201119864890080754443600689000078533902509111159376561059244436006270000894445022100111452514905126444360092800006697300020801117161766098464443600585000066973000216111152075871059241136008450000086745022070110120124400000579360074200000629450220701102784480002384443600807000031874502208011026928090000044436005920000032245022080110442774405126444360083200001435450220301105497376))
 (.node 1 (.leaf 5126444360078200001379450220301105739223000004443600837000028273902503011153142450140444436007660000888447521050110819852300000444360114100001307450220701108184624000004443600283338070094502205011169598511059216136007042123887245022120111555111005126444360115900005669330280801117320968105920003600777010887253902512111162180940512544436008070737802245022140111037401410592000360083500008548430231001115809224105924443600634091467485751714011105106091059244436007422831880047521120111144116506814444360040000005319430231011111801037080644443600980000086663902516111151766290119944436005670000303835027100111571812010592000360051705258957450221211116033052)
 (.leaf 583360060500008836450221201114712516051264443600643003660324102414011195124830544644436008250000868341024140111589002410592444360028300008924600161411115308595096044443600771000084613502712111158810280472044436005051779834343023020111577197900000444360071900009012450220201116175673056974443600807000089574502202011163141130807544436006820000740337026091111937685910592444360060129428871430230901116141221000004443600698000029443000208011043509781059241136008450000061445022070110079674600000579360057600000500450220701116085069002384443600803000026754752108011031143270000044436006860000035745022080110441359805126444360082400001443450220301105564150)))))))
 (.node 32 (.node 16 (.node 8 (.node 4 (.node 2 (.node 1 (.leaf 5126444360078200001354450220301106131560000004443600024000024214502203011071096841059244436007900000893145022050111710280300000444360114100001153450220701115770520051254443600283000066414502205011085338950512644436011590000565533028080111791902010592000360062708138619390251211109125280105921613600807249085734502212011086688550512544436007902998865041024120111626577610592444360077133618528450221201111460028105920003600836008783254102410011111563290681444436004770000852641024101111595846601199444360059200002572350271001118606298105920003600170000084884502216111191568300000058346306270739880145022120111503709905126444360068200007710430230201119292640)
 (.leaf 5446444360079006997996410241401115825077105924443600221000089926251514111157137470960444436007190000828831029121111585863704720444360061300009006450220201115801076000004443600777000090174502202011161315330569744436006430000899345022020111647310608075444360045000008333350270901119630933105924443600656085887804102410011160818580000044436008440000294430002100110433327210592444360082400006697300021401110928370105924113600845000008314502207011157494300000057936007930000147045022070110287314200238444360079000003415475210801115122584000004443600400000003674502208011044859040512644436008190000147045022030110543762205126444360079301771417450220301105964948))
 (.node 1 (.leaf 10592444360068900008862500200801116736173000004443600431000027194302303011069236730000044436011280000116347521070111580138705125444360062100006495450220501108598737051264443601159000045063302808011166745751059200036007141096869539025121111615928710592161360076638768853450221201109112352051254443600779113486864302312011101314811059244436008240376663045022140111095534910592444360077737148614450221201111680205105920003600835008787104502212011178464600681444436008460000889552519101111214257701199444360068900002156330280501115841390105924443600709018089674502212011153584331059200036001700179883645022161111615663610592444360086511598801450221401119536677)
 (.leaf 10592444360036600007765550181401115773674096044443600766000084793302810111158747200472044436006390002901245022020111943130800000444360068200009000450220201115926148056974443600771000088994502202011166599370807544436002570000860050020080111578012210592000360065603038853450221001118919058000004443600848000029443000209011150732660000062642308490000088645022070111603061000000579360074200001470450220701116207600002384443600643000022274752108011040701190000044436001980000081145022080111603239705126444360076600001453450220301105055334051264443600793000014615501803011059800921059244436007090000882950020080110719937200000444360079300002751410240301107326273)))
 (.node 2 (.node 1 (.leaf 5125444360006400006382450220501115901532051264443601159000043803102908011096448181059200036007091108828831029121110938715210592161360083527357235450221201117397642051254443600803183985973902512011099240001059244436007663005843845022120111177297310592000360083600008513500201001111378366068144443600844000088955251910111159263610119944436006890000383533028050111449213410592444360077700538916450221201115130691105920001660104280288994502216111160536801059244436007710000857345022140111572160210592137360071900008943500201411119190576096044443600771000085393502710111160377380472044436006640003901745022020111909955600000444360071900009012450220201115995259)
 (.leaf 5697444360068200008957450220201117101421080754443600585000083423102909011166107211059200036007790186846135027100111606150400000444360092300005141300020801104552466105924443600704000066973000214011177400210126044436006860000121745022070110084348800000131360077900001479450220701102980925002384443600627000021344752108011166325350000044436008450000038345022080110440318505126444360074200001443450220301105317684105924443600779000087404752108011167319940000044436008450000432143023030111676078605125444360080700006736450220501115955591051264443601159000043803102908011099766191059200036007141108857737026121110936097110592161360070941448462430231401109283777))
 (.node 1 (.leaf 5125444360081910108428370261201117437814105924443600664092060534102414011117018111059244436007791252824145022120111640768110592000201083605108614450221201111422693068144443600643075086204102410111117266270119944436008030000735339025050111441180810592444360077700008931450221401119417509105924443600232000087423902512111189757891059244436007820000869450020140111517400109604444360076600008407330281011115965470105921373570621000088945501814011154689650472044436006050000902347521020111566092500000444360082400008981430230201116291246056974443600848000087454102402011204983490807544436003840000830631029090111707715710592000360077909728507330281001114208993)
 (.leaf 444360088800005141300020901104696940012604443600842000012304502207011004953600000013141607420000149045022070110323979900238444360070400002196475210801105067490000004443600845000008364502208011046563260512644436007040637145345022030110558151900000444360062300005188525190801105038153105924443600793112388115002008011071868650000044436008450000461139025030110684514605125444360080700005682450220501108355051051264443601056000047413902509011164525601059200036006983827874541024121111650312610592161360071938948665450221401109190926051254443600803000083804502212011104960431059244436006860796642350020140111832387410592444360078239078836450221201111964468))))
 (.node 4 (.node 2 (.node 1 (.leaf 10592168360083709028763450221201111651168068144443600517000060364302310111159410560119944436008031320826241024120111431183410592444360083900008958475211201116230321105924443600549000087253902514111158529211059244436006430000585743023020111626308409604444360069800007741475211011115902210105922003600643000063024752114011158731710472044436007040000902347521020111584864700000444360068900009017450220201116366536056974443600872000089054102402011195432591059200036008190873849433028100111588757501260444360087000001261450220701115922100006494443600790000015014502207011028733970023844436007190000213447521080110435089700000444360084500001115450220801104582893)
 (.leaf 5126444360078200001443450220301106067914000004443600623000051645251908011051236791059244436007420000881052519080110724831000000444360084500005150410240301106749077051254443600807088747244502205011164105960512644436011300000457135027080111610697010592000203076635358491350271401117926822105925723600771311287124302312011091778690512544436008030255880145022140111795445510592444360078218856534500201401111897166105924443600799052188184502212011117419901059216836008360774880145022120111133999806814444360083600008636410241011111957294011994443600825115377864102412011150431441059244436008420294895745022120111603807210592444360098000008655350271611115659919))
 (.node 1 (.leaf 10592444360076600008726475211401115960394096044443600839047871843702610111160622221059220036005402019623247521141111556036204720444360061700009017450220201115779096000004443600766000089814302302011163811481059200036008190000854133028100111603151301260444360078200001261450220701115716061006494443600803000015184502207011024749170023844436007660000238047521070110408712300000444360084500001225450220801104425786051264443600793063714354502203011063497290000044436006230000661447521080110529195010592444360083207718707450220701106851930000004443600845034152134302303011071316680355444436008071815548645022050111640619300937444360112100004537350270801108612431)
 (.leaf 10592444360079015178539350271401109110843105921613600819327886654502212011172364110512544436002570562551845022140111024375506446444360071912666323575170401118642513105924443600819351888014502212111117251711059216836008362712870060016120111557430906814444360057600005319430231011111665276011994443600807005870363902512011198376520848244436008370000900645022120111672591210592444360036600005653410240201116262760096044443600865000068502903010111158040861059220036004311128765652519141111511608604720444360062703479017450220201115689600000004443600835000088403902502011167969531059200036008030426845133028100111599491300649444360082500001510450220701102533084)))
 (.node 2 (.node 1 (.leaf 238444360074200003452475210801104172009000004443600793000016184502208011047337000512644436008240000145345022030110564401200000444360062300006616500200801105516284105924443600845000087074502207011157862280000044436008450000391343023030111545404603554444360080700004603450220501108277887009374443601064000047923902508011087105781059244436007710667847735027140110873892110592161360068916538614450221201115928131051254443600215000080204502205011160522520644644436007931053781952519120111168642410592000360080320768665450221201116186990105921683600824209788724502212011158707730681444436008032867538143023101111167102701199444360082804237353390251201119411381)
 (.leaf 8482444360084504058993450221201117094923105924443600790038475484752114011163494210960444436006560000781065014101111589607710592200360048600008849525190901115298010047204443600686012690174502202011156913800000044436007190000874437026020112087795910592000360079306548288310291001115630282006494443600824000014904502207011026876860023844436007660000200947521080110466472600000444360052800002060450220801104696710051264443600837000014534502203011050967340000044436006230000654150020080110523828110592444360077907878774525190801107083386056984443600845000037973902503011067086650355444436008070000505345022050110817902500937444360069800005049450220901108761098))
 (.node 1 (.leaf 10592444360083600008087270311401116390453105921613600714182088184502212011097481890512544436000600000457745022050111608045106446444360081938327718450221201116340444105920001690803246588364502212111113092181059216836008240891885345022120111822978206814444360025716554970430231011118173037011994443600844183470363902512011140684990848244436008390404891243023120112034745410592444360082402728635430231401116072536096044443600819000087814502210111159939121059220036005050000771747521090111522361704720444360062700009017450220201119135259000004443600848000089814302302011164962851059200036008460192804929030100111334996700649444360077900001528450220701115111318)
 (.leaf 238444360071400002123475210801104674456000004443600400000022474502208011044597870512644436008320000144345022030110502636100000444360062300006407500200701105315046105924443600742037487565251908011067425820569844436008450000392139025030110674658803554444360080700005189450220501107892742009374443600853000049734502209011086730151059244436007040000860237026140111672961610592161360068919858488450221201117558578051254443600341041056484502212011107189760644644436007993972760245022140111332477200000444360079925495564450221211115804882105921683600828398785734502212011159962400681444436008460000886852519101111207854401199444360083700006966410241201113791675)))))
 (.node 8 (.node 4 (.node 2 (.node 1 (.leaf 8482444360091800008825390251201120555355051264443600656000086264752114011157142170960444436007990267883447521161111600131010592286360047700008975575170901115597021047204443600627000090124502202011156061120000044436008750000892041024020111628486510592000360082401928494330281001115839173006494443600709000015424502207011143858610023844436007090000213647521070111614018600000444360059200003421450220801116043592051264443600819000014534502203011053431460000044436006230000637450020070110553495710592444360077100008811500200701106614428056984443600845000038853902503011064344610355444436008070332475645022050110813100110592444360066405118853450220501117679057)
 (.leaf 937444360105300006407450220901108659318105921613600742061288534502212011099400740512544436008851219887245022120111078283806446444360080327377769450221201117839980000004443600793291387814502212111110547281059216836008251092876345022120111796009406814444360077102138763450221011115560178011994443600793000048223702605011158315930848244436008480000901745022120111683703405126444360069800008849525191401116250249096044443600634026989115501816111158834851059228636004420000880047521080111567078304720444360068900009017450220201115720313000004443600819000089814302302011164594891059200036008370193804929030120111359012100238444360076600003967475210801104483311))
 (.node 1 (.leaf 444360081900001603450220701104635116051264443600793000014434502203011057625890000044436006230000630950020080110549638110592444360069800008843525190701106807894056984443600845000038393902503011066479920355444436008070000596645022050111818202103290444360074200008818450220501108480340009374443601122000055824502209011174109881059216136007091410876345022120110993575005125444360092904108872450221201110539586064464443600771022859235251905011113217040000044436007903099876345022121111146297510592404360083504877495450221201115711906068144443600839000060494302310111158471690119944436008070000703639025120111390273709604444360060121738910575171611115485499)
 (.leaf 5126444360083700008816475211401115735367105922863600400000088825002014011158015210472044436008420000900045022020111585421800000444360080700008920410240201116316020105920003600824346783593102912011159675150023844436007420000410747521080110466596100000444360084500002152450220701104893202051264443600819000014534502207011164158540000044436006340000633850020080110568050110592444360079900008797475210701106921249056984443600845000040133902503011068306240355444436008070000589845022050110884533703290444360071900008619390250501108894923009374443601141000036164502207011086142201059216136006892725866545022120111727455205125444360074209788899450221201110875296)))
 (.node 2 (.node 1 (.leaf 6446444360077719827601475211401111197929087324443600836238688844752112111110473601059240436008191184735845022120111813708806814444360082800005615370261011118227466011994443600779030851323702605011160208051059200036007823054878343023161111583614805126444360070900008317450220201116190847105922863600467000088945501814011195798370472044436008560000898645022020111948835600000444360068200009017450220201116010730105920003600709078884493102912011157400530023844436006860000223047521080110471752900000444360046700002218450220701116802776000004443600664000063394752108011160916661059244436007140000877550020070110638199205698444360084500004346390250301106644807)
 (.leaf 3554444360080700006717450220501116210604032904443600824000085163502705011090522220093744436011410000364445022070110855097810592161360068934888573450221201115422182051254443600867023287284102412011182739470644644436006890000746150020140111627516908732444360092100008944475210511115249674105924043600825417773584502214011123987350681444436008320000718739025101111558532101199444360079301915416370261201113592107105920003600627003386225501816111190632170512644436008030269826241024140111636469410592286360054000008566525191411115929134047204443600856000089674502202011195593060000044436008490000898143023020111607775310592626263070436348389290301201113281740))
 (.node 1 (.leaf 444360034900002285450220701115890531002384443600686000019574752108011044089630000044436006230000466155018080110548185810592444360082409748740475210701106499476056984443600824000046574102403011066341450355444436008070000577245022050110826312203290444360084900008479330280501116280493009374443601141000030694502207011170755771059216136007090743854843023120111555347905125444360085300008885450221401110780380064464443600689000054806501405011109405781059225736008253961741745022140111253375306814444360083200007187390251011115475626011994443600698000040893302808011134448081059200036006210700883155018161111520916204156444360081900008357430230201116149834)
 (.leaf 10592286360042300007166525191411115811481047204443600844000089164502202011160903600000044436008530000892041024020111630705009824444360062300008541330280201116168569000004443600819000032634502208011037789380000056036007820000273247521080110436900000000444360076600003970525190801105592695105924443600807078788115002007011066858940569844436007820000460441024030110696356203554444360080700005977450220501108423050032904443600782000088724502205011088086700093744436011410000117145022100111546172710592161360071904298698430231201117303439051254443600858000088374302312011106625030644644436006890094711262515050111112481610592257360082819797550450221201112537924))))
 (.node 4 (.node 2 (.node 1 (.leaf 6814444360082800007386430231001115614068011994443600698000065093302805011183935261059200036006050000884755018161111582174404156444360079000008726475210801116014135078494443600621000087995002014011158879090472044436009041670886950020020111629015900000444360083500008840390250201116520692098244443600634128883923102912011140022190000044436006390000412245022070110393601000000560360080700002880450220801104700467000004443601039000034934302308011148335131059244436007930000879747521070110646570805698444360077900004612430230301106681701035544443600807000064414502205011163254630329044436007710711889945022050110909882310592161360070418398596430231001117246115)
 (.leaf 5125444360079300008728410241201110554545064464443600689363270825751705011162479821059225736008241179757445022120111229411306814444360082500007392450221001118094706011994443600698000034843302808011131213741059200036006230000884755018161111593072304156444360064300008119450220801115830995078494443600819000088964302314011160783050472044436009010000885150020020111978614800000444360087900008920410240201116208395098244443600639000085293302802011189969930000044436008360000559245022080110443581100000560360080700003749450220801104535502000004443601141000033423902508011052240281059244436007930000877647521070110653554005698444360079000004492450220301106337764))
 (.node 1 (.leaf 3554444360080700006542450220501108065426032904443600719000089164502205011088827181059216136007790872871045022121111597721205125444360083509868698430231201117799340105922573600771117975234502214011160189320681444436008250000730345022101111573751301199444360070400002688330280501113463585105920003600442115987985751716111158740730415644436006860000866545022020111563991807849444360063411998942525191401116389006047204443600853000090095251902011193327190000044436008580000898143023020111589124809824444360060500008479330280201113758009000004443600799000048954502208011045599260000056036008070000360445022080110436489000000444360114100003000390250801105344033)
 (.leaf 10592444360076600008738500200801106972251056984443600790000040814502203011164820860355444436008070000685345022050110788010903290444360068200008885450220501108767256105925723600639396487634102410011109303090000044436007823365888545022140111060120710592257360077909667358450221401112958366068144443600782000071354502210011181258670119944436006560000274135027050111583692710592626360042304947390575171611115692604041564443600865000086354302302011158707630784944436006890000895750020020112090412204720444360054900009024675130201115949493000004443600858000089814302302011158788260982444436005920000850733028100111602027900000560360061700003259475210801116120784)))
 (.node 2 (.node 1 (.leaf 444360095600003386550180801105154204105924443600825000087414502207011068910670569844436008240000496143023030110650629000000444360080700008135450220501107976448105920003600742000088534502205011086443720947844436006212051863339025100111794297800000444360077700988818450221401110293326105923193600742267172354502214011130069440681444436007900202582539025120111823338001199444360069800004032330280501113908369105920003600442000076525751716111154885590415644436008370000728541024140111590989007849444360083900008646390250201117579351047204443600867000090095751702011161073440000044436007190000901745022020111590961909824444360068238658439310291201112880590)
 (.leaf 560378076600002082475210801116087045000004443600825000033316001608011145130451059244436007900000881150020070110635095205698444360066400005930450220301106489096000004443600807000065504502205011082351471059262636008250326891645022050111749263500000444360103004188818450221401115797320094784443600643123087114102410111105392321059231936007660730711645022140111294614606814444360080300008098450221201115878870011994443600742042853183702608011198920801059200036003070000803560016161111460561408841444360087002616981330281401115941310078494443600766000083884102402011170083950472044436005490000901267513020111959381000000444360084500008981430230201116044900))
 (.node 1 (.leaf 9824444360079008088425330281201115368528000004443600793000024914752108011161905720000044436008350000321260016080111549748710592444360077100008774525190801106614698056984443600819000051494502203011064984251059200036008240000887245022050110878451300000444360080700006849450220501116219217000004443600782009988994502214011178817970947844436006272452869741024101111802565410592444360077107307235450221401112873400068144443600872000081924102412011131395440426944436008650000843735027120111534343110592000360040000007931575171611114614406088414443600807000089054102412011157100330784944436001980000872647521020111610051804720444360017600008922650140201115810540)
 (.leaf 9604444360084800008971430230201115976699000004443600643000014114752108011162130730000044436007990000293157517080110556927910592444360083611418740475210801106647338056984443600793000039044502203011066259350000044436002830000625845022050110791800810592000360082400008885450220501108755741000004443600782026288364502214011163993700947844436006230232896745022101111841346610592444360077930187417450221401113131111068144443600183007051734502212011128295600426944436008701571883141024120111600801110592000360044200005923525191611118760407088414443600799002389204102412011159164820472044436004310000853765014020111551291209604444360084500008825390250201115711325))))))
 (.node 16 (.node 8 (.node 4 (.node 2 (.node 1 (.leaf 444360063400003086450220801116032979000004443600698000016024752108011163177350569844436007900000309645022030110668807500000444360013400006444450220501107767280105920003600782000088724502205011088548290000044436008421263845445022140111041707909478444360062708368814410241011118489769105924443600790421676024502212011163835200681444436004230441440845022120111794076404269444360087000008725390251201114216200105920003600366000057394752116111149777660884144436007930000890541024120111635088905697444360086700008962430230201115897110047204443600664000084826251508011153893880000044436006430000335647521070111475910000000444360080700001528450220701116285845)
 (.leaf 5698444360077900001817450220301116837779000004443600055000060414502205011173243381059200036007662463889945022050111769819900000444360083700008573450221401115944630094784443600634040388464102410111178715641059244436007792629729745022120111868936405697444360029302013811450220511112765712042694443600870000087454102412011163587831059200036002320809835660016161111570633908841444360087002578564330281201116208754056974443600858000089394302302011161237620472044436004860000861862515140111580236900000444360063900002981475210701104265779000004443600807000022464502207011054576350569844436007820158131243023030110708266810592029360076600008801450220501116073021))
 (.node 1 (.leaf 444360079300006371450220501108276286000004443600904287975354502205011094998030947844436005583139866639025121111533110010592444360077108407417450221401118633397056974443600164007149744502212011183888710426944436008700000851833028120111443236510592000360042317868137500201611115176575088414443600828096188403902512011158119270569744436008350000880939025020111598552104720444360057600008618625151401115875580000004443600634000040804502207011150530710000044436008070000154745022070110567618805126444360074203831468575170301115890904105920293600799011988994502205011171356970000044436007900117673945022050110802392500000444360035700008001475210501109449853)
 (.leaf 10592009360077715102310450221401116149824056974443600828020084884502212011130379350426944436006860000665533028120111591777810592000360036600008338575171611115728609088414443600858057687443702612011157075100569744436008070000895745022020111629957704720444360043100008527625151401115529732000004443600664000042964752108011043106280512644436007042544139645022030111584472000000444360080700001867450220701106264029105920293600837012089314502208011074394090000044436006130000638245022050110813684900000444360001000007547500200501115537973105920093600790173523104502212011189326880569744436008350000824145022120111318089304269444360085800008763410241201114175021)))
 (.node 2 (.node 1 (.leaf 10592000360046700008503575171611116357740088414443600837000086553502712011158112480569744436008980000890541024020111623376204720444360078229197599600161401119174394000004443600634000042974502208011040234590512644436006640000148850020100111586521600000444360080700001920450220701106438507105920293600930000088534502208011157406310000044436005580000664345022050110832946200000444360024700006974450220501109372495105920093600825141223104302312011165323380569744436008562832883645022120111289818604269444360066400007111330281201116330817105920003600334000085156001616111158188730569744436006010000884641024020111528909709785444360043100007236450220801115953640)
 (.leaf 444360064300003947475210701104288850051264443600689000014765251903011059873990000044436008070000166545022070110601307210592029360077900008872450220801115757999105924443600639000068534502205011083762250000044436002730000745845022050110967751410592009360084423922310410241201119275428000004443600862260589684752112011130830920426944436008700061879941024120111404457110592000360023200008356600161611116166949056974443600634000089574502202011193300270978544436004500000731441024080111957748900000444360070400004121525190701116130593051264443600714000014434502203011156450990000044436008070000152445022070111625036610592029360077100008824450220801106852067))
 (.node 1 (.leaf 10592444360074210547057450220501108330208000004443600055074979154752105011176300191059200936008483945231039025120111893912200000444360086705708957450221201116078244042694443600704000084373502712011158277161059200036003660279859557517161111603239405697444360087900008926430230201115917646097854443600467000069964102414011158418660000044436006980000317050020080110396260705126444360069800001300410240301105165872000004443600807000037474502207011057069511059202936008651422886045022070111643171600000444360066424028614450220501116267265000004443600994000060444502210011097795330000044436008750201882043023120111345376310592009360070416352310450221201116236667)
 (.leaf 4269444360086232698783430231201113440928105920003600283000071576001616111149960660569744436008450000893943023020111596587709785444360046700007350430230801115922687000004443600656000041844752108011161313170512644436007930000124841024030110512285901136444360080700002031450220701115057119105924443600825058786614502208011063431630000044436007790000699745022050110842653700000444360094601046034450221401115817382000004443600853032288034302312011163296031059200936008531216231041024120111985101502445444360085800008729430231201115687108105920003600232000072136001616111158077360569744436008480000891243023020111599085409785444360046701337807410240211115872172))))
 (.node 4 (.node 2 (.node 1 (.leaf 444360082500003862600160701103992497051264443600714000013484302303011050127350113644436008070000155945022070110510560210592444360069803748829475210701116443112000004443600686000087264752105011168086560000044436008240000535247521050111559787300000444360086203248837430231211113388373105920093600870154023103702612011173609270244544436008320308845839025120111329995310592000360036600007015575171611114511139056974443600643000087804102402011157721000978544436001920000897460016021111983710900000444360081900004090550180701103789081051264443600698000014434502203011059218870113644436008070000155945022070110475476010592444360077100008676475210801116453666)
 (.leaf 444360079000006884450220501108671422030964443600867000047044752105011091236660000044436008670202887143023121111853765910592009360087025472310370261201116773402024454443600867000074164302312011156820241059200036003070000569760016161111550629205697444360078200008944450220201116047698097854443600232000089285251914111165346930000044436009080000323445022080110368432305126444360077900001465450220301115944630011364443600807000015634502210011140338481059244436008250000844645022080110601450400000444360065600008671550180501117900310030964443600980000082904752110011158252870000044436008420000876345022120111840440710592444360084505482310390251201117027605))
 (.node 1 (.leaf 2445444360080700006158370260801113538876105920003600232000056976001616111149569790628144436007420000889643023020111626210800000444360063400001501450220701114949668051264443600793000011614102407011047360751059244436008250000862945022010110607232100000444360070400008600500200101117340467030964443601048000086444502205011091853670000044436008653394874843023120111255029510592444360086508992310390251201116945286024454443600845000083553902512011133615251059200036002320000685560016161111587851606281444360082500008944450220201116150017000004443601141000013733902508011035217880512644436006980000129443023070110468505010592444360084900008740475210801116513770)
 (.leaf 444360070900008513500200101116795467030964443600975000053524752105011091624750000044436008242113863543023120111819264508177444360084205442310410240801116008871024454443600777000084863702612011154000971059200036002320000685560016161111871495306281444360088501268926430230201116143869000004443601141000013803902507011160896710512644436006230000145345022080111616127110592444360064300008570525190801105635776000004443600689000087865002001011158126850309644436000600936472150020050111575635100000444360088800008763410241211112527263081774443600766043087634502205011147236890244544436008440061750143023120111346897910592000360022100008418600161611115731218)))
 (.node 2 (.node 1 (.leaf 6281444360087900008831410240201119627410000004443601141000009243902507011034461500512644436007190000140243023070110470728810592444360064304008794525190501114915782000004443600777000083954502205011166018890000044436008900941881441024121111577868708177444360086700008761390251201116822006024454443600807000084863702612011158176351059244436002260000851560016161111446300806281444360070900008711410240201116197745000004443601141000009243902507011033577710512644436006230000141745022080110492169710592444360068600008194475210501104961330000004443600777000068464502205011062998640000044436009440000872841024121111232282108177444360085803108796390251201114043039)
 (.leaf 2445444360084800007185410241201113203477105920003600198000083566001616111155767190628144436008280000874541024020111610455900000444360114100000902390250701115318759051264443600698000014434502208011156783581059244436006130000751257517080111492604410592444360074200008337450220501106468248000004443600975000087634102412011155339930817744436007792623882043023080111618078502445444360085303107060410241201113232911105924443600221000084686001616111141801930628144436008710000892643023020111926678600000444360090800000952450220701103346855051264443600790000013704102407011043237621059244436006980000791047521070111505507410592444360083500008446450220501115717552))
 (.node 1 (.leaf 444360084200007125410241201116077303081774443600867394188093902505011143923991059200036001980000796860016161111407665906281444360071400008944450220201115865768000004443600877000008864502207011034737190512644436006270000145345022080111529851710592444360070400007769450220701115371252105924443600790000084264502205011059624750000044436008650000869741024120111376870608177444360082417738890410240801116035441105920003600116000079445751716111154410690628144436008350000896243023020111614915500000444360095600001254430230801103446165051264443600621000014354502208011157299821059244436006640000774050020080111656974810592444360082800007346450220501115860085)
 (.leaf 444360086215098745410241201115848597081774443600973274289204102405011140246831059200036001980000881360016161111536345706281444360084200008981430230201116505303000004443600958000012944302308011032201310512644436007190000139043023070110422497110592444360070400005509450220701116496664105924443600779000085004502208011064332060000044436008560000795241024120111860113208177444360104639318971430230801114061134105920002250170000087006001616111156380750628144436008780000898143023020111672484100000444360095500000989430230801103294828051264443600627000014534502208011154658471059244436006890000455047521070111573191510592444360081900007727450220801115767686)))))
 (.node 4 (.node 2 (.node 1 (.leaf 444360087036958650410241201113220465081774443601043164489714302305011186375251059200036001701713844355018161111580907206281444360089800008920410240201116449594000004443600918000010254502207011034960920512644436006230000144345022080110387930110592444360062700004337550180701104586501105924443600793000076004502208011055058810000044436008702894865041024120111347555608177444360114100009017450221601115316683105920003600558051686225501816111157670170628144436008980000892041024020112053564600000444360087800001056450220801103304380051264443600790000014274502207011157753671059244436006860000444347521070111643005510592444360071900007686475210801105584222)
 (.leaf 444360087019848968475211201119132360105920003600116063079534752116111158224020628144436009390000884039025020111724509401934444360087700001074450220701114977362051264443600601000014354502208011156009290302744436006691337376052519070110378844610592444360063900007791550180801115899731000004443600862143888834302312011142222961059200036004770938806250020161111577407201934444360062300002322450220701102116181051264443600623000013964502208011158505910302744436006890000435752519070110392015010592444360068600007793500200801116941077000004443600870031288464102412011159431831059200036006210739790552519161111414542905126444360079900001339450220801103129639))
 (.node 1 (.leaf 1934444360062700003568370260801113695204030274443600669000044065002007011037953181059244436007900000763045022080111596131010592000360062308458137500201611114788987019344443600634000040013102908011140432240512644436007040000142745022080111594276803027444360066900004406500200701103817405105924443600714000076584752108011157865931059200036005670297828350020161111618062301934444360080700004070370260701115471435051264443600669000014354502208011166453070302744436006820000435752519070110346809300000444360062700007765550180801115819812105920003600517084881375002016111143112700193444436007660000205035027070111601761505126444360068200001453450220801102910482)
 (.leaf 3027444360083200003830500200701114604598000004443600686000058435251908011157839611059200036004230054833447521161111607643305126444360079000001417450220701115851491000004443600807000016614502208011041535511059200036005920851820850020161111529734305126444360070900001443450220701102042090000004443600782000030394502208011163685221059200036004230416839647521161111655403805126444360069800001443450220701116107175000004443600766000014654502208011038353681059200036006231394844847521161111606669505126444360068200001427450220701101700404000004443600828000019904502207011162165081059200036006890748826347521161111580832405126444360069800001300450220701101512277)))
 (.node 1 (.leaf 444360080324051465450220801116135842105920003600664000081744502216111187940910512644436008190000121745022070111583622802947444360077900003224450220801115743019105920003600704053484125002016111160218370512644436008370000119945022070111529825302947444360079300001453450220701115818243105920001790704304583545002016111162819100512644436008370000083145022070111522566202947444360079300001030450220701116289671104264443600807391185684102412111162829520512644436008650000095245022070111553148802947444360079000001465450220701115423783104264443600837107585673902512111159027870512644436008440000149045022100110008880002947444360082500001453450220701101991055)
 (.leaf 10426444360090404308709390251211115864604011574443600779000008864502207011003448760294744436008070000143545022070110225597110426444360093400008944450221211115845092011574443600669000009524502207011002756700294744436008390000143545022070110294137301157444360076600001490450221001100034504029474443600839000014654502207011028264100115744436007040000155145022100111430862902947444360076600001470450220701101829038029474443600771000014654502207011162659310294744436007660000151045022070111605930700000000000000000000000000000000000000000000000000000000000000000000000000000000000000000000000000000000000000000000000000000000000000000000000000000000000000000000)))))))

end WG
