/-!
The digits in `/repo/fmath/pi.py`.
-/

namespace Cryptopy.Model

/-- The 1000 rows of `pi_string_unstripped`, `fmath/pi.py` lines 18-1019, without the `3.` of the first
one; a row of 50 digits is written as a number, without its leading zeros. -/
def piRows : List Nat :=
  [14159265358979323846264338327950288419716939937510,
    58209749445923078164062862089986280348253421170679,
    82148086513282306647093844609550582231725359408128,
    48111745028410270193852110555964462294895493038196,
    44288109756659334461284756482337867831652712019091,
    45648566923460348610454326648213393607260249141273,
    72458700660631558817488152092096282925409171536436,
    78925903600113305305488204665213841469519415116094,
    33057270365759591953092186117381932611793105118548,
    7446237996274956735188575272489122793818301194912,
    98336733624406566430860213949463952247371907021798,
    60943702770539217176293176752384674818467669405132,
    56812714526356082778577134275778960917363717872,
    14684409012249534301465495853710507922796892589235,
    42019956112129021960864034418159813629774771309960,
    51870721134999999837297804995105973173281609631859,
    50244594553469083026425223082533446850352619311881,
    71010003137838752886587533208381420617177669147303,
    59825349042875546873115956286388235378759375195778,
    18577805321712268066130019278766111959092164201989,
    38095257201065485863278865936153381827968230301952,
    3530185296899577362259941389124972177528347913151,
    55748572424541506959508295331168617278558890750983,
    81754637464939319255060400927701671139009848824012,
    85836160356370766010471018194295559619894676783744,
    94482553797747268471040475346462080466842590694912,
    93313677028989152104752162056966024058038150193511,
    25338243003558764024749647326391419927260426992279,
    67823547816360093417216412199245863150302861829745,
    55706749838505494588586926995690927210797509302955,
    32116534498720275596023648066549911988183479775356,
    63698074265425278625518184175746728909777727938000,
    81647060016145249192173217214772350141441973568548,
    16136115735255213347574184946843852332390739414333,
    45477624168625189835694855620992192221842725502542,
    56887671790494601653466804988627232791786085784383,
    82796797668145410095388378636095068006422512520511,
    73929848960841284886269456042419652850222106611863,
    6744278622039194945047123713786960956364371917287,
    46776465757396241389086583264599581339047802759009,
    94657640789512694683983525957098258226205224894077,
    26719478268482601476990902640136394437455305068203,
    49625245174939965143142980919065925093722169646151,
    57098583874105978859597729754989301617539284681382,
    68683868942774155991855925245953959431049972524680,
    84598727364469584865383673622262609912460805124388,
    43904512441365497627807977156914359977001296160894,
    41694868555848406353422072225828488648158456028506,
    1684273945226746767889525213852254995466672782398,
    64565961163548862305774564980355936345681743241125,
    15076069479451096596094025228879710893145669136867,
    22874894056010150330861792868092087476091782493858,
    90097149096759852613655497818931297848216829989487,
    22658804857564014270477555132379641451523746234364,
    54285844479526586782105114135473573952311342716610,
    21359695362314429524849371871101457654035902799344,
    3742007310578539062198387447808478489683321445713,
    86875194350643021845319104848100537061468067491927,
    81911979399520614196634287544406437451237181921799,
    98391015919561814675142691239748940907186494231961,
    56794520809514655022523160388193014209376213785595,
    66389377870830390697920773467221825625996615014215,
    3068038447734549202605414665925201497442850732518,
    66600213243408819071048633173464965145390579626856,
    10055081066587969981635747363840525714591028970641,
    40110971206280439039759515677157700420337869936007,
    23055876317635942187312514712053292819182618612586,
    73215791984148488291644706095752706957220917567116,
    72291098169091528017350671274858322287183520935396,
    57251210835791513698820914442100675103346711031412,
    67111369908658516398315019701651511685171437657618,
    35155650884909989859982387345528331635507647918535,
    89322618548963213293308985706420467525907091548141,
    65498594616371802709819943099244889575712828905923,
    23326097299712084433573265489382391193259746366730,
    58360414281388303203824903758985243744170291327656,
    18093773444030707469211201913020330380197621101100,
    44929321516084244485963766983895228684783123552658,
    21314495768572624334418930396864262434107732269780,
    28073189154411010446823252716201052652272111660396,
    66557309254711055785376346682065310989652691862056,
    47693125705863566201855810072936065987648611791045,
    33488503461136576867532494416680396265797877185560,
    84552965412665408530614344431858676975145661406800,
    70023787765913440171274947042056223053899456131407,
    11270004078547332699390814546646458807972708266830,
    63432858785698305235808933065757406795457163775254,
    20211495576158140025012622859413021647155097925923,
    9907965473761255176567513575178296664547791745011,
    29961489030463994713296210734043751895735961458901,
    93897131117904297828564750320319869151402870808599,
    4801094121472213179476477726224142548545403321571,
    85306142288137585043063321751829798662237172159160,
    77166925474873898665494945011465406284336639379003,
    97692656721463853067360965712091807638327166416274,
    88880078692560290228472104031721186082041900042296,
    61711963779213375751149595015660496318629472654736,
    42523081770367515906735023507283540567040386743513,
    62222477158915049530984448933309634087807693259939,
    78054193414473774418426312986080998886874132604721,
    56951623965864573021631598193195167353812974167729,
    47867242292465436680098067692823828068996400482435,
    40370141631496589794092432378969070697794223625082,
    21688957383798623001593776471651228935786015881617,
    55782973523344604281512627203734314653197777416031,
    99066554187639792933441952154134189948544473456738,
    31624993419131814809277771038638773431772075456545,
    32207770921201905166096280490926360197598828161332,
    31666365286193266863360627356763035447762803504507,
    77235547105859548702790814356240145171806246436267,
    94561275318134078330336254232783944975382437205835,
    31147711992606381334677687969597030983391307710987,
    4085913374641442822772634659470474587847787201927,
    71528073176790770715721344473060570073349243693113,
    83504931631284042512192565179806941135280131470130,
    47816437885185290928545201165839341965621349143415,
    95625865865570552690496520985803385072242648293972,
    85847831630577775606888764462482468579260395352773,
    48030480290058760758251047470916439613626760449256,
    27420420832085661190625454337213153595845068772460,
    29016187667952406163425225771954291629919306455377,
    99140373404328752628889639958794757291746426357455,
    25407909145135711136941091193932519107602082520261,
    87985318877058429725916778131496990090192116971737,
    27847684726860849003377024242916513005005168323364,
    35038951702989392233451722013812806965011784408745,
    19601212285993716231301711444846409038906449544400,
    61986907548516026327505298349187407866808818338510,
    22833450850486082503930213321971551843063545500766,
    82829493041377655279397517546139539846833936383047,
    46119966538581538420568533862186725233402830871123,
    28278921250771262946322956398989893582116745627010,
    21835646220134967151881909730381198004973407239610,
    36854066431939509790190699639552453005450580685501,
    95673022921913933918568034490398205955100226353536,
    19204199474553859381023439554495977837790237421617,
    27111723643435439478221818528624085140066604433258,
    88569867054315470696574745855033232334210730154594,
    5165537906866273337995851156257843229882737231989,
    87571415957811196358330059408730681216028764962867,
    44604774649159950549737425626901049037781986835938,
    14657412680492564879855614537234786733039046883834,
    36346553794986419270563872931748723320837601123029,
    91136793862708943879936201629515413371424892830722,
    1269014754668476535761647737946752004907571555278,
    19653621323926406160136358155907422020203187277605,
    27721900556148425551879253034351398442532234157623,
    36106425063904975008656271095359194658975141310348,
    22769306247435363256916078154781811528436679570611,
    8615331504452127473924544945423682886061340841486,
    37767009612071512491404302725386076482363414334623,
    51897576645216413767969031495019108575984423919862,
    91642193994907236234646844117394032659184044378051,
    33389452574239950829659122850855582157250310712570,
    12668302402929525220118726767562204154205161841634,
    84756516999811614101002996078386909291603028840026,
    91041407928862150784245167090870006992821206604183,
    71806535567252532567532861291042487761825829765157,
    95984703562226293486003415872298053498965022629174,
    87882027342092222453398562647669149055628425039127,
    57710284027998066365825488926488025456610172967026,
    64076559042909945681506526530537182941270336931378,
    51786090407086671149655834343476933857817113864558,
    73678123014587687126603489139095620099393610310291,
    61615288138437909904231747336394804575931493140529,
    76347574811935670911013775172100803155902485309066,
    92037671922033229094334676851422144773793937517034,
    43661991040337511173547191855046449026365512816228,
    82446257591633303910722538374218214088350865739177,
    15096828874782656995995744906617583441375223970968,
    34080053559849175417381883999446974867626551658276,
    58483588453142775687900290951702835297163445621296,
    40435231176006651012412006597558512761785838292041,
    97484423608007193045761893234922927965019875187212,
    72675079812554709589045563579212210333466974992356,
    30254947802490114195212382815309114079073860251522,
    74299581807247162591668545133312394804947079119153,
    26734302824418604142636395480004480026704962482017,
    92896476697583183271314251702969234889627668440323,
    26092752496035799646925650493681836090032380929345,
    95889706953653494060340216654437558900456328822505,
    45255640564482465151875471196218443965825337543885,
    69094113031509526179378002974120766514793942590298,
    96959469955657612186561967337862362561252163208628,
    69222103274889218654364802296780705765615144632046,
    92790682120738837781423356282360896320806822246801,
    22482611771858963814091839036736722208883215137556,
    372798394004152970028783076670944474560134556417,
    25437090697939612257142989467154357846878861444581,
    23145935719849225284716050492212424701412147805734,
    55105008019086996033027634787081081754501193071412,
    23390866393833952942578690507643100638351983438934,
    15961318543475464955697810382930971646514384070070,
    73604112373599843452251610507027056235266012764848,
    30840761183013052793205427462865403603674532865105,
    70658748822569815793678976697422057505968344086973,
    50201410206723585020072452256326513410559240190274,
    21624843914035998953539459094407046912091409387001,
    26456001623742880210927645793106579229552498872758,
    46101264836999892256959688159205600101655256375678,
    56672279661988578279484885583439751874454551296563,
    44348039664205579829368043522027709842942325330225,
    76341807039476994159791594530069752148293366555661,
    56787364005366656416547321704390352132954352916941,
    45990416087532018683793702348886894791510716378529,
    2345292440773659495630510074210871426134974595615,
    13849871375704710178795731042296906667021449863746,
    45952808243694457897723300487647652413390759204340,
    19634039114732023380715095222010682563427471646024,
    33544005152126693249341967397704159568375355516673,
    2739007497297363549645332888698440611964961627734,
    49518273695588220757355176651589855190986665393549,
    48106887320685990754079234240230092590070173196036,
    22547564789406475483466477604114632339056513433068,
    44953979070903023460461470961696886885014083470405,
    46074295869913829668246818571031887906528703665083,
    24319744047718556789348230894310682870272280973624,
    80939962706074726455399253994428081137369433887294,
    6307926159599546262462970706259484556903471197299,
    64090894180595343932512362355081349490043642785271,
    38315912568989295196427287573946914272534366941532,
    36100453730488198551706594121735246258954873016760,
    2988659257866285612496655235338294287854253404830,
    83307016537228563559152534784459818313411290019992,
    5981352205117336585640782648494276441137639386692,
    48031183644536985891754426473998822846218449008777,
    69776312795722672655562596282542765318300134070922,
    33436577916012809317940171859859993384923549564005,
    70995585611349802524990669842330173503580440811685,
    52653117099570899427328709258487894436460050410892,
    26691783525870785951298344172953519537885534573742,
    60859029081765155780390594640873506123226112009373,
    10804854852635722825768203416050484662775045003126,
    20080079980492548534694146977516493270950493463938,
    24322271885159740547021482897111777923761225788734,
    77188196825462981268685817050740272550263329044976,
    27789442362167411918626943965067151577958675648239,
    93917604260176338704549901761436412046921823707648,
    87834196896861181558158736062938603810171215855272,
    66830082383404656475880405138080163363887421637140,
    64354955618689641122821407533026551004241048967835,
    28588290243670904887118190909494533144218287661810,
    31007354770549815968077200947469613436092861484941,
    78501718077930681085469000944589952794243981392135,
    5586422196483491512639012803832001097738680662877,
    92397180146134324457264009737425700735921003154150,
    89367930081699805365202760072774967458400283624053,
    46037263416554259027601834840306811381855105979705,
    66400750942608788573579603732451414678670368809880,
    60971642584975951380693094494015154222219432913021,
    73912538355915031003330325111749156969174502714943,
    31515588540392216409722910112903552181576282328318,
    23425483261119128009282525619020526301639114772473,
    31485739107775874425387611746578671169414776421441,
    11126358355387136101102326798775641024682403226483,
    46417663698066378576813492045302240819727856471983,
    96308781543221166912246415911776732253264335686146,
    18654522268126887268445968442416107854016768142080,
    88502800541436131462308210259417375623899420757136,
    27516745731891894562835257044133543758575342698699,
    47254703165661399199968262824727064133622217892390,
    31760854289437339356188916512504244040089527198378,
    73864805847268954624388234375178852014395600571048,
    11949884239060613695734231559079670346149143447886,
    36041031823507365027785908975782727313050488939890,
    9923913503373250855982655867089242612429473670193,
    90772713070686917092646254842324074855036608013604,
    66895118400936686095463250021458529309500009071510,
    58236267293264537382104938724996699339424685516483,
    26113414611068026744663733437534076429402668297386,
    52209357016263846485285149036293201991996882851718,
    39536691345222444708045923966028171565515656661113,
    59823112250628905854914509715755390024393153519090,
    21071194573002438801766150352708626025378817975194,
    78061013715004489917210022201335013106016391541589,
    57803711779277522597874289191791552241718958536168,
    5947412341933984202187456492564434623925319531351,
    3311476394911995072858430658361935369329699289837,
    91494193940608572486396883690326556436421664425760,
    79147108699843157337496488352927693282207629472823,
    81537409961545598798259891093717126218283025848112,
    38901196822142945766758071865380650648702613389282,
    29949725745303328389638184394477077940228435988341,
    358385423897354243956475556840952248445541392394,
    10001620769363684677641301781965937997155746854194,
    63348937484391297423914336593604100352343777065888,
    67781139498616478747140793263858738624732889645643,
    59877466763847946650407411182565837887845485814896,
    29612739984134427260860618724554523606431537101127,
    46809778704464094758280348769758948328241239292960,
    58294861919667091895808983320121031843034012849511,
    62035342801441276172858302435598300320420245120728,
    72535581195840149180969253395075778400067465526031,
    44616705082768277222353419110263416315714740612385,
    4258459884199076112872580591139356896014316682831,
    76323567325417073420817332230462987992804908514094,
    79036887868789493054695570307261900950207643349335,
    91060245450864536289354568629585313153371838682656,
    17862273637169757741830239860065914816164049449650,
    11732131389574706208847480236537103115089842799275,
    44268532779743113951435741722197597993596852522857,
    45263796289612691572357986620573408375766873884266,
    40599099350500081337543245463596750484423528487470,
    14435454195762584735642161981340734685411176688311,
    86544893776979566517279662326714810338643913751865,
    94673002443450054499539974237232871249483470604406,
    34716063258306498297955101095418362350303094530973,
    35834462839476304775645015008507578949548931393944,
    89921612552559770143685894358587752637962559708167,
    76438001254365023714127834679261019955852247172201,
    77723700417808419423948725406801556035998390548985,
    72354674564239058585021671903139526294455439131663,
    13453089390620467843877850542393905247313620129476,
    91874975191011472315289326772533918146607300089027,
    76896311481090220972452075916729700785058071718638,
    10549679731001678708506942070922329080703832634534,
    52038027860990556900134137182368370991949516489600,
    75504934126787643674638490206396401976668559233565,
    46391383631857456981471962108410809618846054560390,
    38455343729141446513474940784884423772175154334260,
    30669883176833100113310869042193903108014378433415,
    13709243530136776310849135161564226984750743032971,
    67469640666531527035325467112667522460551199581831,
    96376370761799191920357958200759560530234626775794,
    39363074630569010801149427141009391369138107258137,
    81357894005599500183542511841721360557275221035268,
    3735726527922417373605751127887218190844900617801,
    38897107708229310027976659358387589093956881485602,
    63224393726562472776037890814458837855019702843779,
    36240782505270487581647032458129087839523245323789,
    60298416692254896497156069811921865849267704039564,
    81278102179913217416305810554598801300484562997651,
    12124153637451500563507012781592671424134210330156,
    61653560247338078430286552572227530499988370153487,
    93008062601809623815161366903341111386538510919367,
    39383522934588832255088706450753947395204396807906,
    70868064450969865488016828743437861264538158342807,
    53061845485903798217994599681154419742536344399602,
    90251001588827216474500682070419376158454712318346,
    726293395505482395571372568402322682130124767945,
    22644820910235647752723082081063518899152692889108,
    45557112660396503439789627825001611015323516051965,
    59042118449499077899920073294769058685778787209829,
    1352956613978884860509786085957017731298155314951,
    68146717695976099421003618355913877781769845875810,
    44662839988060061622984861693533738657877359833616,
    13384133853684211978938900185295691967804554482858,
    48370117096721253533875862158231013310387766827211,
    57269495181795897546939926421979155233857662316762,
    75475703546994148929041301863861194391962838870543,
    67774322427680913236544948536676800000106526248547,
    30558615989991401707698385483188750142938908995068,
    54530765116803337322265175662207526951791442252808,
    16517166776672793035485154204023817460892328391703,
    27542575086765511785939500279338959205766827896776,
    44531840404185540104351348389531201326378369283580,
    82719378312654961745997056745071833206503455664403,
    44904536275600112501843356073612227659492783937064,
    78426456763388188075656121689605041611390390639601,
    62022153684941092605387688714837989559999112099164,
    64644119185682770045742434340216722764455893301277,
    81586869525069499364610175685060167145354315814801,
    5458860564550133203758645485840324029871709348091,
    5562116715468484778039447569798042631809917564228,
    9873998766973237695737015808068229045992123661689,
    2596273043067931653114940176473769387351409336183,
    32161428021497633991898354848756252987524238730775,
    59555955465196394401821840998412489826236737714672,
    26061633643296406335728107078875816404381485018841,
    14318859882769449011932129682715888413386943468285,
    90066640806314077757725705630729400492940302420498,
    41656547973670548558044586572022763784046682337985,
    28271057843197535417950113472736257740802134768260,
    45022851579795797647467022840999561601569108903845,
    82450267926594205550395879229818526480070683765041,
    83656209455543461351341525700659748819163413595567,
    19649654032187271602648593049039787489589066127250,
    79482827693895352175362185079629778514618843271922,
    32238101587444505286652380225328438913752738458923,
    84422535472653098171578447834215822327020690287232,
    33005386216347988509469547200479523112015043293226,
    62827276321779088400878614802214753765781058197022,
    26309717495072127248479478169572961423658595782090,
    83073323356034846531873029302665964501371837542889,
    75579714499246540386817992138934692447419850973346,
    26793321072686870768062639919361965044099542167627,
    84091466985692571507431574079380532392523947755744,
    15918458215625181921552337096074833292349210345146,
    26437449805596103307994145347784574699992128599999,
    39961228161521931488876938802228108300198601654941,
    65426169685867883726095877456761825072759929508931,
    80521872924610867639958916145855058397274209809097,
    81729323930106766386824040111304024700735085782872,
    46271349463685318154696904669686939254725194139929,
    14652423857762550047485295476814795467007050347999,
    58886769501612497228204030399546327883069597624936,
    15101024365553522306906129493885990157346610237122,
    35478911292547696176005047974928060721268039226911,
    2777226102544149221576504508120677173571202718024,
    29681062037765788371669091094180744878140490755178,
    20385653909910477594141321543284406250301802757169,
    65082096427348414695726397884256008453121406593580,
    90412711359200419759851362547961606322887361813673,
    73244506079244117639975974619383584574915988097667,
    44709300654634242346063423747466608043170126005205,
    59284936959414340814685298150539471789004518357551,
    54125223590590687264878635752541911288877371766374,
    86027660634960353679470269232297186832771739323619,
    20077745221262475186983349515101986426988784717193,
    96649769070825217423365662725928440620430214113719,
    92278526998469884770232382384005565551788908766136,
    1304770984386116870523105531491625172837327286760,
    7248172987637569816335415074608838663640693470437,
    20668865127568826614973078865701568501691864748854,
    16791545965072342877306998537139043002665307839877,
    63850323818215535597323530686043010675760838908627,
    4984188859513809103042359578249514398859011318583,
    58406674723702971497850841458530857813391562707603,
    56390763947311455495832266945702494139831634332378,
    97595568085683629725386791327505554252449194358912,
    84050452269538121791319145135009938463117740179715,
    12283785460116035955402864405902496466930707769055,
    48102885020808580087811577381719174177601733073855,
    47580060560143377432990127286772530431825197579167,
    92969965041460706645712588834697979642931622965520,
    16879730003564630457930884032748077181155533090988,
    70255052076804630346086581653948769519600440848206,
    59673794731680864156456505300498816164905788311543,
    45485052660069823093157776500378070466126470602145,
    75057932709620478256152471459189652236083966456241,
    5195510522357239739512881816405978591427914816542,
    63289200428160913693777372229998332708208296995573,
    77273756676155271139225880552018988762011416800546,
    87365580633471603734291703907986396522961312801782,
    67971728982293607028806908776866059325274637840539,
    76918480820410219447197138692560841624511239806201,
    13184541244782050110798760717155683154078865439041,
    21087303240201068534194723047666672174986986854707,
    67812051247367924791931508564447753798537997322344,
    56122785843296846647513336573692387201464723679427,
    87004250325558992688434959287612400755875694641370,
    56251400117971331662071537154360068764773186755871,
    48783989081074295309410605969443158477539700943988,
    39491443235366853920994687964506653398573888786614,
    76294434140104988899316005120767810358861166020296,
    11936396821349607501116498327856353161451684576956,
    87109002999769841263266502347716728657378579085746,
    64607722834154031144152941880478254387617707904300,
    1566986776795760909966936075594965152736349811896,
    41304331166277471233881740603731743970540670310967,
    67657486953587896700319258662594105105335843846560,
    23391796749267844763708474978333655579007384191473,
    19886271352595462518160434225372996286326749682405,
    80602964211463864368642247248872834341704415734824,
    81833301640566959668866769563491416328426414974533,
    34999948000266998758881593507357815195889900539512,
    8535103572613736403436753471410483601754648830040,
    78464167452167371904831096767113443494819262681110,
    73994825060739495073503169019731852119552635632584,
    33909982249862406703107683184466072912487475403161,
    79699411397387765899868554170318847788675929026070,
    4321266617919223520938227878880988633599116081923,
    53555704646349113208591897961327913197564909760001,
    39962344455350143464268604644958624769094347048293,
    29414041114654092398834443515913320107739441118407,
    41076849810663472410482393582740194493566516108846,
    31256785297769734684303061462418035852933159734583,
    3845541033701091676776374276210213701354854450926,
    30719011473184857492331816720721372793556795284439,
    25481560913728128406333039373562420016045664557414,
    58816605216660873874804724339121295587776390696903,
    70788285277538940524607584962315743691711317613478,
    38827194168606625721036851321566478001476752310393,
    57860689611125996028183930954870905907386135191459,
    18195102973278755710497290114871718971800469616977,
    70017913919613791417162707018958469214343696762927,
    45910994006008498356842520191559370370101104974733,
    94938778859894174330317853487076032219829705797511,
    91440510994235883034546353492349826883624043327267,
    41554030161950568065418093940998202060999414021689,
    9007082133072308966211977553066591881411915778362,
    72927461561857103721724710095214236964830864102592,
    88745799932237495519122195190342445230753513380685,
    68073544649951272031744871954039761073080602699062,
    58076020292731455252078079914184290638844373499681,
    45827337207266391767020118300464819000241308350884,
    65841521489912761065137415394356572113903285749187,
    69094413702090517031487773461652879848235338297260,
    13611098451484182380812054099612527458088109948697,
    22161285248974255555160763716750548961730168096138,
    3811914361143992106380050832140987604599309324851,
    2516829446726066613815174571255975495358023998314,
    69822036133808284993567055755247129027453977621404,
    93182014658008021566536067765508783804304134310591,
    80460680083459113664083488740800574127258670479225,
    83191274157390809143831384564241509408491339180968,
    40251163991936853225557338966953749026620923261318,
    85589158083245557194845387562878612885900410600607,
    37465014026278240273469625282171749415823317492396,
    83530136178653673760642166778137739951006589528877,
    42766263684183068019080460984980946976366733566228,
    29151323527888061577682781595886691802389403330764,
    41912403412022316368577860357276941541778826435238,
    13190502808701857504704631293335375728538660588890,
    45831114507739429352019943219711716422350056440429,
    79892081594307167019857469273848653833436145794634,
    17592257389858800169801475742054299580124295810545,
    65108310462972829375841611625325625165724980784920,
    99897990620035936509934721582965174135798491047111,
    66079158743698654122234834188772292944633517865385,
    67319625598520260729476740726167671455736498121056,
    77716893484917660771705277187601199908144113058645,
    57791052568430481144026193840232247093924980293355,
    7318458903553971330884461741079591625117148648744,
    68611247605428673436709046678468670274091881014249,
    71114965781772427934707021668829561087779440504843,
    75284433751088282647719785400065097040330218625561,
    47332117771174413350281608840351781452541964320309,
    57601869464908868154528562134698835544456024955666,
    84366029221951248309106053772019802183101032704178,
    38665447181260397190688462370857518080035327047185,
    65949947612424811099928867915896904956394762460842,
    40659309486215076903149870206735338483495508363660,
    17848771060809804269247132410009464014373603265645,
    18456679245666955100150229833079849607994988249706,
    17236744936122622296179081431141466094123415935930,
    95854079139087208322733549572080757165171876599449,
    85693795623875551617575438091780528029464200447215,
    39628074636021132942559160025707356281263873310600,
    58910652457080244749375431841494014821199962764531,
    6800663118382376163966318093144467129861552759820,
    14514102756006892975024630401735148919457636078935,
    28555053173314164570504996443890936308438744847839,
    61684051845273288403234520247056851646571647713932,
    37755172947951261323982296023945485797545865174587,
    87713318138752959809412174227300352296508089177705,
    6825924882232215493804837145478164721397682096332,
    5083056479204820859204754998573203888763916019952,
    40918938945576768749730856955958010659526503036266,
    15975066222508406742889826590751063756356996821151,
    9496697445805472886936310203678232501823237084597,
    90111548472087618212477813266330412076216587312970,
    81123075815982124863980721240786887811450165582513,
    61789030708608701989758898074566439551574153631931,
    91981070575336633738038272152798849350397480015890,
    51942087971130805123393322190346624991716915094854,
    14018710603546037946433790058909577211808044657439,
    62806186717861017156740967662080295766577051291209,
    90794430463289294730615951043090222143937184956063,
    40561893425130572682914657832933405246350289291754,
    70872564842600349629611654138230077313327298305001,
    60256724014185152041890701154288579920812198449315,
    69990591820118197335001261877280368124819958770702,
    7532406361259313438595542547781961142935163561223,
    49666152261473539967405158499860355295332924575238,
    88101362023476246690558164389678630976273655047243,
    48643071218494373485300606387644566272186661701238,
    12771562137974614986132874411771455244470899714452,
    28856629424402301847912054784985745216346964489738,
    92062401943518310088283480249249085403077863875165,
    91130287395878709810077271827187452901397283661484,
    21428717055317965430765045343246005363614726181809,
    69976933486264077435199928686323835088756683595097,
    26557481543194019557685043724800102041374983187225,
    96773871549583997184449072791419658459300839426370,
    20875635398216962055324803212267498911402678528599,
    67340524203109179789990571882194939132075343170798,
    237365909853755202389116434671855829068537118979,
    52626234492483392496342449714656846591248918556629,
    58932990903523923333364743520370770101084388003290,
    75983421701855422838616172104176030116459187805393,
    67447472059985023582891833692922337323999480437108,
    41965947316265482574809948250999183300697656936715,
    96893644933488647442135008407006608835972350395323,
    40179582557036016936990988671132109798897070517280,
    75585519126993067309925070407024556850778679069476,
    61262980822516331363995211709845280926303759224267,
    42575599892892783704744452189363203489415521044597,
    26188380030067761793138139916205806270165102445886,
    92476492468919246121253102757313908404700071435613,
    62316992371694848132554200914530410371354532966206,
    39210547982439212517254013231490274058589206321758,
    94943454890684639931375709103463327141531622328055,
    22972979538018801628590735729554162788676498274186,
    16421878988574107164906919185116281528548679417363,
    89066538857642291583425006736124538491606741373401,
    73572779956341043326883569507814931378007362354180,
    7061918026732855119194267609122103598746924117283,
    74931261633950012395992405084543756985079570462226,
    64619000103500490183034153545842833764378111988556,
    31877779253720116671853954183598443830520376281944,
    7615941068207169703022851522505731260930468984234,
    33152732131361216582808075212631547730604423774753,
    50595228717440266638914881717308643611138906942027,
    90881431194487994171540421034121908470940802540239,
    32942945493878640230512927119097513536000921971105,
    41209668311151632870542302847007312065803262641711,
    61659576132723515666625366727189985341998952368848,
    30999302757419916463841427077988708874229277053891,
    22717248632202889842512528721782603050099451082478,
    35729056919885554678860794628053712270424665431921,
    45281760741482403827835829719301017888345674167811,
    39895475044833931468963076339665722672704339321674,
    54218245570625247972199786685427989779923395790575,
    81890622525473582205236424850783407110144980478726,
    69199018643882293230538231855973286978092225352959,
    10173414073348847610055640182423921926950620831838,
    14546983923664613639891012102177095976704908305081,
    85470419466437131229969235889538493013635657618610,
    60622287055994233716310212784574464639897381885667,
    46260879482018647487672727222062676465338099801966,
    88368099415907577685263986514625333631245053640261,
    5696055131838131742611844201890888531963569869627,
    95036738424313011331753305329802016688817481342988,
    68158557781034323175306478498321062971842518438553,
    44276201282345707169885305183261796411785796088881,
    50329602290705614476220915094739035946646916235396,
    80920139457817589108893199211226007392814916948161,
    52738427362642980982340632002440244958944561291670,
    49508235812487391799648641133480324757775219708932,
    77226234948601504665268143987705161531702669692970,
    49283162855042128981467061953319702695072143782304,
    76875280287354126166391708245925170010714180854800,
    63692325946201900227808740985977192180515853214739,
    26532515590354102092846659252999143537918253145452,
    90598415817637058927906909896911164381187809435371,
    52133226144362531449012745477269573939348154691631,
    16249288735747188240715039950094467319543161938554,
    85207665738825139639163576723151005556037263394867,
    20820780865373494244011579966750736071115935133195,
    91971209489647175530245313647709420946356969822266,
    73775209945168450643623824211853534887989395673187,
    80660610788544000550827657030558744854180577889171,
    92078814233511386629296671796434687600770479995378,
    83387870348718021842437342112273940255717690819603,
    9201824018842705704609262256417837526526335832424,
    6612533115294234579655695025068100183109004112453,
    79015332966156970522379210325706937051090830789479,
    99900499939532215362274847660361367769797856738658,
    46709366795885837887956259464648913766521995882869,
    33801836011932368578558558195556042156250883650203,
    32202451376215820461810670519533065306060650105488,
    71672453779428313388716313955969058320834168984760,
    65607118347136218123246227258841990286142087284956,
    87963932546428534307530110528571382964370999035694,
    88852851904029560473461311382638788975517885604249,
    98748316382804046848618938189590542039889872650697,
    62020199554841265000539442820393012748163815853039,
    64399254702016727593285743666616441109625663373054,
    9219519675148328734808957477775278344221091073111,
    35182804603634719818565557295714474768255285786334,
    93428584231187494400032296906977583159038580393535,
    21358860079600342097547392296733310649395601812237,
    81285458431760556173386112673478074585067606304822,
    94096530411183066710818930311088717281675195796753,
    47188537229309616143204006381322465841111157758358,
    58113501856904781536893813771847281475199835050478,
    12977185990847076219746058874232569958288925350419,
    37958260616211842368768511418316068315867994601652,
    5774052942305360178031335726326705479033840125730,
    59123396018801378254219270947673371919872873852480,
    57421248921183470876629667207272325650565129333126,
    5950577772754247124164831283298207236175057467387,
    1282095755443059683955556868611883971355220844528,
    52640081252027665557677495969626612604565245684086,
    13923826576858338469849977872670655519185446869846,
    94784957346226062942196245570853712727765230989554,
    50193037732166649182578154677292005212667143463209,
    63789185232321501897612603437368406719419303774688,
    9992968775824410478781232662531818459604538535438,
    39114496775312864260925211537673258866722604042523,
    49108702695809964759580579466397341906401003636190,
    40420331135793365424263035614570090112448008900208,
    1478056603710154122328891465722393145076071670643,
    55682743774396578906797268743847307634645167756210,
    30986040927170909512808630902973850445271828927496,
    89212106670081648583395537735919136950153162018908,
    88748421079870689911480466927065094076204650277252,
    86507289053285485614331608126930056937854178610969,
    69202538865034577183176686885923681488475276498468,
    82194973972970773718718840041432312763650481453112,
    28509900207424092558592529261030210673681543470152,
    52348786351643976235860419194129697690405264832347,
    991115424260127343802208933109668636789869497799,
    40012601642276092608234930411806438291383473546797,
    25399262338791582998486459271734059225620749105308,
    53153718291168163721939518870095778818158685046450,
    76993439409874335144316263303172477474868979182092,
    39480833143970840673084079589358108966564775859905,
    56376952523265361442478023082681183103773588708924,
    6130313364773710116282146146616794040905186152603,
    60092521947218890918107335871964142144478654899528,
    58234394705007983038853886083103571930600277119455,
    80219119428999227223534587075662469261776631788551,
    44350218287026685610665003531050216318206017609217,
    98468493686316129372795187307897263735371715025637,
    87335797718081848784588665043358243770041477104149,
    34927438457587107159731559439426412570270965125108,
    11554824793940359768118811728247215825010949609662,
    53933953809221955919181885526780621499231727631632,
    18339896938075616855911752998450132067129392404144,
    59386239880938124045219148483164621014738918251010,
    90967738690664041589736104764365000680771056567184,
    86281496371118832192445663945814491486165500495676,
    98269030891118568798692947051352481609174324301538,
    36847072928989828460222373014526556798986277679680,
    91469798378268764311598832109043715611299766521539,
    63546442086919756737000573876497843768628768179249,
    74694384274652563163230055513041742273416464551278,
    12784577772457520386543754282825671412885834544435,
    13256205446424101103795546419058116862305964476958,
    70540721419852121067343324107567675758184569906930,
    46047522770167005684543969234041711089888993416350,
    58515788735343081552081177207188037910404698306957,
    86854739376564336319797868036718730796939242363214,
    48450354776315670255390065423117920153464977929066,
    24150832885839529054263768766896880503331722780018,
    58850697362324038947004718976193473443084374437599,
    25034178807972235859134245813144049847701732361694,
    71976571535319775499716278566311904691260918259124,
    98903676541769799036237552865263757337635269693443,
    54400473067198868901968147428767790866979688522501,
    63694985673021752313252926537589641517147955953878,
    42784998664563028788319620998304945198743963690706,
    82762657485810439112232618794059941554063270131989,
    89570376110532360629867480377915376751158304320849,
    87209202809297526498125691634250005229088726469252,
    84666104665392171482080130502298052637836426959733,
    70705392278915351056888393811324975707133102950443,
    3467159894487868471164383280506925077662745001220,
    3526203709466023414648998390252588830148678162196,
    77519458316771876275720050543979441245990077115205,
    15461993050983869825428464072555409274031325716326,
    40792934183342147090412542533523248021932277075355,
    54679587163835875018159338717423606155117101312352,
    56334858203651461418700492057043720182617331947157,
    867578539336078622739558185797587258744102542077,
    10547536129404746010009409544495966288148691590389,
    90718659805636171376922272907641977551777201042764,
    96949611056220592502420217704269622154958726453989,
    22769766031052498085575947163107587013320886146326,
    64125911486338812202844406941694882615295776253250,
    19870359870674380469821942056381255833436421949232,
    27593722128905642094308235254408411086454536940496,
    92714940033197828613181861888111184082578659287574,
    26384450059944229568586460481033015388911499486935,
    43603022181094346676400002236255057363129462629609,
    61987605642599639461386923308371962659547392346241,
    34597795748524647837980795693198650815977675350553,
    91899115133525229873611277918274854200868953965835,
    94219633315028695611920122988898870060799927954111,
    88269023078913107603617634779489432032102773359416,
    90865007193280401716384064498787175375678118532132,
    84082165711075495282949749362146082155832056872321,
    85574065161096274874375098092230211609982633033915,
    46949464449100451528092508974507489676032409076898,
    36529406579201983152654106581368237919840906457124,
    68948470209357761193139980246813405200394781949866,
    20262400890215016616381353838151503773502296607462,
    79529103840686855690701575166241929872444827194293,
    31004854824454580718897633003232525821581280327467,
    96200281476243182862217105435289834820827345168018,
    61317195933247110746622285087106661177034653528395,
    77625997744672185715816126411143271794347885990892,
    80848669491413909771673690027775850268664654056595,
    3948678411107901161040085727445629384254941675946,
    5487117235946429105850909950214958793112196135908,
    31588262068233215615308683373083817327932819698387,
    50870834838804638847844188400318471269745437093732,
    98362402875197920802321878744882872843727378017827,
    805878241074935751488997891173974612932035108143,
    27032514090304874622629423443275712600866425083331,
    87688650756429271605525289544921537651751492196367,
    18104943531785838345386525565664065725136357506435,
    32365089367904317025978781771903148679638408288102,
    9461490079715137717099061954969640070867667102330,
    4867263147551053723175711432231741141168062286420,
    63889062101923552235467116621374996932693217370431,
    5987225039456574924616978260970253359475020913836,
    67377289443869640002811034402608471289900074680776,
    48440887113413525033678773167977093727786821661178,
    65344231732264637847697875144332095340001650692130,
    54647689098505020301504488083426184520873053097318,
    94929164253229336124315143065782640702838984098416,
    2950309241897120971601649265613413433422298827909,
    92178604267981245728534580133826099587717811310216,
    73402565627440072968340661984806766158050216918337,
    23680399027931606420436812079900316264449146190219,
    45822969099212278855394878353830564686488165556229,
    43156731282743908264506116289428035016613366978240,
    51770155219626522725455850738640585299830379180350,
    43287670380925216790757120406123759632768567484507,
    91511473134400018325703449209097124358094479004624,
    94313455028900680648704293534037436032625820535790,
    11839564908935434510134296961754524957396062149028,
    87289327925206965353863964432253883275224996059869,
    74759882329916263545973324445163755334377492928990,
    58117578635555562693742691094711700216541171821975,
    5198317871371060510637955585889055688528879890847,
    50915764639074693619881507814685262133252473837651,
    19299015610918977792200870579339646382749068069876,
    91681974923656242260871541761004306089043779766785,
    19661891404144925270480881971498801542057787006521,
    59400928977760133075684796699295543365613984773806,
    3943688958876460549838714789684828053847017308711,
    17761159663505039979343869339119789887109156541709,
    13308260764740630571141109883938809548143782847452,
    88383680794188843426662220704387228874139478010177,
    21392281911992365405516395893474263953824829609036,
    90028835932774585506080131798840716244656399794827,
    57836501955142215513392819782269842786383916797150,
    91262410548725700924070045488485692950448110738087,
    99654748156891393538094347455697212891982717702076,
    66136024895814681191336141212587838955773571949863,
    17210844398901423948496659251731388171602663261931,
    6536653504147307080441493916936326237376777709585,
    3132559900957627319573086480424677012123270205337,
    42667053142448208168130306397378736642483672539837,
    48769098060218278578621651273856351329014890350988,
    32706172589325753639939790557291751600976154590447,
    71692265806315111028038436017374742152476085152099,
    1615858231257159073342173657626714239047827958728,
    15050956330928026684589376496497702329736413190609,
    82740633531089792464242134583740901169391964250459,
    12881340349881063540088759682005440836438651661788,
    5576089568967275315380819420773325979172784376256,
    61184319891025007491829086475149794003160703845549,
    46538594602745244746681231468794344161099333890899,
    26384118474252570445725174593257389895651857165759,
    61481266020310797628254165590506042479114016957900,
    33835657486925280074302562341949828646791447632277,
    40055294609039401775363356554719310001754300475047,
    19144899841040015867946179241610016454716551337074,
    7395026044276953855383439755054887109978520540117,
    51697475813449260794336895437832211724506873442319,
    89878844128542064742809735625807066983106979935260,
    69339213568588139121480735472846322778490808700246,
    77763036055512323866562951788537196730346347012229,
    39581606792509153217489030840886516061119011498443,
    41235012464692802880599613428351188471544977127847,
    33617662850621697787177438243625657117794500644777,
    18370221999106695021656757644044997940765037999954,
    84500271066598781360380231412683690578319046079276,
    52972776940436130230517870805465115424693952651271,
    1052927070306673024447125973939950514628404767431,
    36373997825918454117641332790646063658415292701903,
    2760173394748669603486949765417524293060407270050,
    59039503148522921392575594845078867977925253931765,
    15641619716844352436979444735596426063339105512682,
    60615957262170366985064732812667245219890605498802,
    80782881429796336696744124805982192146339565745722,
    10229867759974673812606936706913408155941201611596,
    1902377535255563006062479832612498812881929373434,
    76862689219239777833910733106588256813777172328315,
    32908252509273304785072497713944833389255208117560,
    84529665905539409655685417060011798572938139982583,
    19293679100391844099286575605993598910002969864460,
    97471471847010153128376263114677420914557404181590,
    88000649432378558393085308283054760767995243573916,
    31221886057549673832243195650655460852881201902363,
    64471270374863442172725787950342848631294491631847,
    53475314350413920961087960577309872013524840750576,
    37199253650470908582513936863463863368042891767107,
    60211115982887553994012007601394703366179371539630,
    61398636554922137415979051190835882900976566473007,
    33879314678913181465109316761575821351424860442292,
    44530411316065270097433008849903467540551864067734,
    26035834096086055337473627609356588531097609942383,
    47382222087292464497684560579562516765574088410321,
    73134562773585605235823638953203853402484227337163,
    91239732159954408284216666360232965456947035771848,
    73442034227706653837387506169212768015766181095420,
    9770836360436111059240911788954033802142652394892,
    96864398089261146354145715351943428507213534530183,
    15875628275733898268898523557799295727645229391567,
    47756667605108788764845349363606827805056462281359,
    88858792599409464460417052044700463151379754317371,
    87756039815962647501410906658866162180038266989961,
    96558058720863972117699521946678985701179833244060,
    18115756580742841829106151939176300591943144346051,
    54047710570054339000182453117733718955857603607182,
    86050635647997900413976180895536366960316219311325,
    2238517916720551806592635180362512145759262383693,
    48222665895576994660491938112486609099798128571823,
    49400661555219611220720309227764620099931524427358,
    94887105766238946938894464950939603304543408421024,
    62401048723328750081749179875543879387381439894238,
    1176270083719605309438394006375611645856094312951,
    75977139353960743227924892212670458081833137641658,
    18269562105872892447740035947009268662659651422050,
    63007859200248829186083974373235384908396432614700,
    5324235406470420894992102504047267810590836440074,
    66380020870126664209457181702946752278540074508552,
    37772089058168391844659282941701828823301497155423,
    52359117748186285929676050482038643431087795628929,
    25405638946621948268711042828163893975711757786915,
    43016505860296521745958198887868040811032843273986,
    71986213062055598552660364050462821523061545944744,
    89908839081999738747452969810776201487134000122535,
    52224669540931521311533791579802697955571050850747,
    38747507580687653764457825244326380461430428892359,
    34852961058269382103498000405248407084403561167817,
    17051281337880570564345061611933042444079826037795,
    11985486945591520519600930412710072778493015550388,
    95360338261929343797081874320949914159593396368110,
    62755729527800425486306005452383915106899891357882,
    194117865356821491185282078521301255185184937115,
    3422159542244511900207393539627400208110465530207,
    93286725474054365271759589350071633607632161472581,
    54076420530200453401835723382926619153083540951202,
    26329165054426123619197051613839357326693760156914,
    42994494374485680977569630312958871916112929468188,
    49363386473927476012269641588489009657170861605981,
    47204467428664208765334799858222090619802173211614,
    23041947775499073873856794118982466091309169177227,
    42072333676350326783405863019301932429963972044451,
    79288122854478211953530898910125342975524727635730,
    22628138209180743974867145359077863353016082155991,
    13141442050914472935350222308171936635093468658586,
    56314855575862447818620108711889760652969899269328,
    17870557643514338206014107732926106343152533718224,
    33852635202177354407152818981376987551575745469397,
    27150488469793619500477720970561793913828989845327,
    42622728864710888327017372325881824465843624958059,
    25603381052156062061557132991560848920643403033952,
    62263451454283678698288074251422567451806184149564,
    68611163540497189768215422772247947403357152743681,
    94098920501136534001238467142965518673441537416150,
    42563256713430247655125219218035780169240326699541,
    74608759240920700466934039651017813485783569444076,
    4702325407555577647284507518268904182939661133101,
    60131119077398632462778219023650660374041606724962,
    49013743321724645409741299557052914243820807609836,
    48234659738866913499197840131080155813439791948528,
    30436739012482082444814128095443773898320059864909,
    15950532285791457688496257866588599917986752055455,
    80990045564611787552493701245532171701942828846174,
    2736649978475508294228020232901221630102309772151,
    56944642790980219082668986883426307160920791408519,
    76952355534886577434252775311972474308730436195113,
    96119080030255878387644206085044730631299277888942,
    72918972716989057592524467966018970748296094919064,
    87646937027507738664323919190422542902353189233772,
    93166736086996228032557185308919284403805071030064,
    77684786324319100022392978525537237556621364474009,
    67605394398382357646069924652600890906241059042154,
    53927904411529580345334500256244101006359530039598,
    86446616959562635187806068851372346270799732723313,
    46939714562855426154676506324656766202792452085813,
    47717608521691340946520307673391841147504140168924,
    12131982688156866456148538028753933116023229255561,
    89410429953356400957864953409351152664540244187759,
    49316930560448686420862757201172319526405023099774,
    56764783848897346431721598062678767183800524769688,
    40849891850861490034324034767426862459523958903585,
    82135006450998178244636087317754378859677672919526,
    11121385919472545140030118050343787527766440276261,
    89410175768726804281766238606804778852428874302591,
    45247073950546525135339459598789619778911041890292,
    94381856720507096460626354173294464957661265195349,
    57018600154126239622864138977967333290705673769621,
    56498184506842263690367849555970026079867996261019,
    3933126376855696876702929537116252800554310078640,
    87289392257145124811357786276649024251619902774710,
    90335933309304948380597856628844787441469841499067,
    12376478958226329490467981208998485716357108783119,
    18486302545016209298058292083348136384054217200561,
    21989353669371336733392464416125223196943471206417,
    37549121635700857369439730597970971972666664226743,
    11177621764030686813103518991122713397240368870009,
    96862922546465006385288620393800504778276912835603,
    37254825579391298525150682996910775425764748832534,
    14121328006267170940090982235296579579978030182824,
    28490221470748111124018607613415150387569830918652,
    78065889668236252393784527263453042041880250844236,
    31903833183845505223679923577529291069250432614469,
    50109861088899914658551881873582528164302520939285,
    25807796973762084563748211443398816271003170315133,
    44023095263519295886806908213558536801610002137408,
    51154484912685841268695899174149133820578492800698,
    25519574020181810564129725083607035685105533178784,
    8290000415525118657794539633175385320921497205266,
    7831260281961164858098684587525129997404092797683,
    17663991465538610893758795221497173172813151793290,
    44311218158710235187407572221001237687219447472093,
    49312324107065080618562372526732540733324875754482,
    96757345001932190219911996079798937338367324257610,
    39389853492787774739805080800155447640610535222023,
    25409443567718794565430406735896491017610775948364,
    54082348613025471847648518957583667439979150851285,
    80206078205544629917232020282229148869593997299742,
    97471155371858924238493855858595407438104882624648,
    78805330427146301194158989632879267832732245610385,
    21970111304665871005000832851773117764897352309266,
    61234588873102883515626446023671996644554727608310,
    11878838915114934093934475007302585581475619088139,
    87523578123313422798665035227253671712307568610450,
    4548970360079569827626392344107146584895780241408,
    15840522953693749971066559489445924628661996355635,
    6526234053394391421112718106910522900246574236041]

end Cryptopy.Model
