import Verif.Normal.Model

/-!
The literals of the tables of the normal generators, in units of 10^-44 (generated by tools/gen_zig.py).
-/
namespace Verif.Normal

/-- `frandn_zig_x`, /repo/src/util/rng/frandn_table.cc:4-69. -/
def frandnX : List ℕ := [
  0,
  34555202242398008749546534090768545866013000,
  46215568102338339118162480190221685916185000,
  54504600696136429327509631548309698700905000,
  61195362523637453211478032244485802948475000,
  66931788089916532946688221272779628634453000,
  72027435992699895273005950002698227763176000,
  76660874190091954361037096532527357339859000,
  80944453838211105622946206494816578924656000,
  84953965796918218256195132198627106845379000,
  88743255561541500853195429954212158918381000,
  92352148166420278130317456088960170745850000,
  95811067502319913202768475457560271024704000,
  99143886110667567290732904439209960401058000,
  102369765883165642073038270609686151146890000,
  105504393021857989509726394317112863063810000,
  108560833610854645669974161137361079454420000,
  111550142926940876186847617645980790257450000,
  114481809966275749346209522627759724855420000,
  117364088790464360378962282993597909808160000,
  120204250365454923255015273753087967634200000,
  123008777454260820327647252270253375172620000,
  125783518041057051917164244514424353837970000,
  128533808136221949780519935302436351776120000,
  131264571722107770135323789872927591204640000,
  133980403497400479828627339884405955672260000,
  136685638625164274095880045933881774544720000,
  139384412672853197356914733973098918795590000,
  142080714214861147937085661396849900484090000,
  144778432060317485685629890213022008538250000,
  147481398711943145762859330716310068964960000,
  150193431416868983241386104054981842637060000,
  152918372011795988818505520612234249711040000,
  155660126676552668101294329972006380558010000,
  158422706682741676331716007553040981292720000,
  161210271254115911077064993150997906923290000,
  164027173743923371240782671520719304680820000,
  166878012488101212795754690887406468391420000,
  169767687924033783275490350206382572650910000,
  172701467892000115611494948097970336675640000,
  175685063489527726332539714348968118429180000,
  178724718470431587213909097044961526989940000,
  181827316033032149178438885428477078676220000,
  185000508018240328311776465852744877338410000,
  188252873175315249554273577814456075429920000,
  191594113458653780845963865431258454918860000,
  195035300611524964331522369320737197995190000,
  198589190070632382045801023195963352918620000,
  202270626285276655664802092360332608222960000,
  206097074189982532033127426984719932079320000,
  210089327989073959557231319195125252008440000,
  214272474393355949473516375292092561721800000,
  218677229765656644389082430279813706874850000,
  223341841857551948180571343982592225074770000,
  228314871321088208588889756356365978717800000,
  233659395575745554296531736326869577169420000,
  239459614976011803122446508496068418025970000,
  245831736105772158396121085388585925102230000,
  252942981597855354181092479848302900791170000,
  261047364902201017855531972600147128105160000,
  270559998606952989419482946686912328004840000,
  282234249732397612930867580871563404798510000,
  297682379879056124849512343644164502620700000,
  321592924550852282336577125931853515794500000,
  352688136032778830515621582009089252096600000]

/-- `frandn_zig_y`, /repo/src/util/rng/frandn_table.cc:71-136. -/
def frandnY : List ℕ := [
  100000000000000000000000000000000000000000000,
  94204418489164818507680329573439337309537000,
  89871084518764474558666366377224221650977000,
  86196761825608605203348847045852210158046000,
  82924169214659409110797227970834910593112000,
  79932055946294713378880852916452681711235000,
  77151622512019601854513922711831241940672000,
  74539240467919501453072234076202562391700000,
  72065105654192787809587603109484632568638000,
  69707740823244799719358988365769391748472000,
  67451034215492141851190643908608990386711000,
  65282514097710719761305520059124773979420000,
  63192280720294644763036784329557349337847000,
  61172312580295890266195157902728851695429000,
  59215997749530544576757745689477019368496000,
  57317806731288086608900114726772301310120000,
  55473057713082416246477140964188379257394000,
  53677744090307613671281608547225516758772000,
  51928405123023571848123181027290229394566000,
  50222027190189616680567746831442832444736000,
  48555967208031390367037501143432365324770000,
  46927892404233917991165578320611473372992000,
  45335732363410094483886260408045387748643000,
  43777640417616599022082243819475877444347000,
  42251962250295206272423034765672866797104000,
  40757210137363272404922159841689222048444000,
  39292041643924028389463221078159449461964000,
  37855241880027493887699019392556465390953000,
  36445708627566789607134419004541570075162000,
  35062439805206711601528318800191641457786000,
  33704522854538442405377719757186838478447000,
  32371125719058124381899595178868622724622000,
  31061489155547205394045096049637777468888000,
  29774920170315998462591197681881283187977000,
  28510786414412745597493636928732030355604000,
  27268511405126700784828409906968005316230000,
  26047570468036198649197307530833711552987000,
  24847487316078160514269158876121679213611000,
  23667831200900182462198897276328679595281000,
  22508214588119269128634221399654080641994000,
  21368291322922901786206251184552229460678000,
  20247755266505245362021383342954194972663000,
  19146339397930083145882990125485889620904000,
  18063815391025909397792938854143685034614000,
  16999993692895921206843529854824126346102000,
  15954724150925197811512826207014370538673000,
  14927897260658239165251413155255377773756000,
  13919446140292705076080791160020311281187000,
  12929349382809189428309316199916523260072000,
  11957635000126569613200164243771439487318000,
  11004385764974420347799173580671805439124000,
  10069746391502830031711417796413954306445000,
  9153933202201744250524340085206631556502500,
  8257247254089322292114469167834123197735600,
  7380092428122818217997190212709135437307900,
  6523000887995589227295357981351031639860600,
  5686669921543162444134292612951675494059600,
  4872017206675437223461588680251121985520500,
  4080267659192000042063888133603288821404900,
  3313098485527896023796401089867025291368900,
  2572902254561227811165287880645902163223600,
  1863323273948142741633714029869661743532600,
  1190567663419299606134671822357806725278800,
  567831664177669976834901413922929158673010,
  199034743523649059822258763300523165540310]

/-- `FRANDN_R`, /repo/src/util/rng/frandn_table.h:9. -/
def frandnR : ℕ := 321592924550852282336577125931853515794500000

/-- `drandn_zig_x`, /repo/src/util/rng/drandn_table.cc:4-261. -/
def drandnX : List ℕ := [
  0,
  21524318296569736053136523423745529726148000,
  28617631549916616728879148467967752367258000,
  33573955429156693286429913314350415021181000,
  37512361976624758463927378215885255485773000,
  40839163764521052568667869309138040989637000,
  43752109735157496128721277273143641650677000,
  46363720662851209963761789367708843201399000,
  48744699741309577278869369365565944463015000,
  50942651185480603004407385014928877353668000,
  52991304542010564393450522402417846024036000,
  54915516258111896075178037790465168654919000,
  56734184690505828907447494202642701566219000,
  58462048052456272451138374890433624386787000,
  60110845240230925679014717388781718909740000,
  61690094110444959607519876954029314219952000,
  63207630061765007756235945635125972330570000,
  64669988933196254077273579241591505706310000,
  66082685628333859284566642600111663341522000,
  67450421015307981953412763687083497643471000,
  68777238330316503578387710149399936199188000,
  70066643292883146187932652537710964679718000,
  71321697663302552339104067868902347981930000,
  72545093043817465705558333866065368056297000,
  73739209765720192812921141012338921427727000,
  74906164367117666902373684933991171419621000,
  76047848236364035123813209793297573924065000,
  77165959339071743539051340121659450232983000,
  78262028475145606343232884682947769761086000,
  79337441169295297438424086067243479192257000,
  80393456045766298334598332075984217226505000,
  81431220349630373256388793379301205277443000,
  82451783134992340240643216020544059574604000,
  83456106532380791573899614377296529710293000,
  84445075424529425500708157414919696748257000,
  85419505795366079681230075948406010866165000,
  86380151966700591259495922713540494441986000,
  87327712897465259445084484468679875135422000,
  88262837688917206158123462955700233578682000,
  89186130414096664864587182819377630949020000,
  90098154369646255013037716707913205027580000,
  90999435831769626137344175731413997709751000,
  91890467384827856367479625987471081316471000,
  92771710880212632233110525703523308038712000,
  93643600074208133143827126332325860857964000,
  94506542986180652743399832615978084504604000,
  95360924012315473330403392537846229970455000,
  96207105825020555744941930242930538952351000,
  97045431083847089048788348009111359715462000,
  97876223980188725715123609916190616786480000,
  98699791634994271660730191797483712434769000,
  99516425366165062182943756852182559669018000,
  100326401840129797449208126636222004890440000,
  101129984120232330191413439024472609162330000,
  101927422622978891553202629438601434230800000,
  102718955991827942675342910661129280924800000,
  103504811897032222844927673577331006526950000,
  104285207769029875102262394648278132081030000,
  105060351472004831485662634804612025618550000,
  105830441923475926380149303440703079104420000,
  106595669665111980606297947815619409084320000,
  107356217389393204797443104325793683528900000,
  108112260426234096932773809385253116488460000,
  108863967193240851472069152805488556623460000,
  109611499612887652865822474268497899174690000,
  110355013499554477363062687800265848636630000,
  111094658919067201807706624094862490892410000,
  111830580523114386792826735472772270441060000,
  112562917860679090331643692479701712727550000,
  113291805668414724550530081614851951599120000,
  114017374141707583667937342397635802626610000,
  114739749188003314905870411166688427329060000,
  115459052663826811091496438166359439492230000,
  116175402596792531895175670797470957040790000,
  116888913393784799055197254347149282693860000,
  117599696036381207164822626509703695774080000,
  118307858264497545164317671151366084814070000,
  119013504749147047689916689705569297075270000,
  119716737255130190042962112784152850508690000,
  120417654794401607354359384771669283509250000,
  121116353770798323985502520372392609715460000,
  121812928116757168695016844139900058507920000,
  122507469422597603525559861736837774515150000,
  123200067058900519789688132732408121228220000,
  123890808292470788742889453715179115533830000,
  124579778396333984424870777729665860533710000,
  125267060754182280035706753551494330167770000,
  125952736959653566195527218951610848307610000,
  126636886910798618366413847979856655001640000,
  127319588900065383541004848666489124298100000,
  128000919700104986986843869090080261230470000,
  128680954645682876780199421773431822657590000,
  129359767711958029146046555979410186409950000,
  130037431589375174212364072445780038833620000,
  130714017755398193010307750228093937039380000,
  131389596543297515474080228159436956048010000,
  132064237208190404793128891469677910208700000,
  132738007990520157086677954794140532612800000,
  133410976177148299370855966117233037948610000,
  134083208160223277261025032203178852796550000,
  134754769493978998617933484638342633843420000,
  135425724949607673153195719351060688495640000,
  136096138568342928110155298782046884298320000,
  136766073712881430779475522285792976617810000,
  137435593117264387430509486875962466001510000,
  138104758935333760128116864507319405674930000,
  138773632787872069904722138744546100497250000,
  139442275808529392300272320426302030682560000,
  140110748688636066461299378715921193361280000,
  140779111720995153689273138297721743583680000,
  141447424842744751138923220423748716712000000,
  142115747677376247359859462449094280600550000,
  142784139575991364523588345036841928958890000,
  143452659657877945598158930806675925850870000,
  144121366850481336108202867762884125113490000,
  144790319928846078489925730536924675107000000,
  145459577554600438809018214669777080416680000,
  146129198314554131776787926355609670281410000,
  146799240758978277732182959880447015166280000,
  147469763439634959922841517254710197448730000,
  148140824947622884444342616916401311755180000,
  148812483951104246315821910684462636709210000,
  149484799232977727534432688116794452071190000,
  150157829728561464932568014774005860090260000,
  150831634563350069910825368424411863088610000,
  151506273090909271417103809653781354427340000,
  152181804930972108813591603393433615565300000,
  152858290007800845522467625414719805121420000,
  153535788588879151816968260391149669885640000,
  154214361324000259756417108292225748300550000,
  154894069284817192944103680929401889443400000,
  155574974004922750303592238196870312094690000,
  156257137520528144314369001222075894474980000,
  156940622411810815073351932369405403733250000,
  157625491845003695701166179787833243608470000,
  158311809615300425058137534506386145949360000,
  158999640190653401816689438419416546821590000,
  159689048756543816587338824319886043667790000,
  160380101261806018442257482092827558517460000,
  161072864465591680804834595619468018412590000,
  161767405985562540138289477908983826637270000,
  162463794347404344442509227519622072577480000,
  163162099035758867415779604925774037837980000,
  163862390546675351643557405623141676187520000,
  164564740441687340499754554912215098738670000,
  165269221403626587196811215108027681708340000,
  165975907294291258331497829203726723790170000,
  166684873214091799908942448382731527090070000,
  167396195563804717210132366744801402091980000,
  168109952108571913953483090153895318508150000,
  168826222044290741308714132173918187618260000,
  169545086066548811309928623813902959227560000,
  170266626442266755248056142590939998626710000,
  170990927084221921994355852802982553839680000,
  171718073628637091232462807965930551290510000,
  172448153516029467624548487947322428226470000,
  173181256075528455795620175194926559925080000,
  173917472612883861060595336311962455511090000,
  174656896502401215443001092353370040655140000,
  175399623283056760314480015949811786413190000,
  176145750759062313939296018361346796154980000,
  176895379105168659705782374658156186342240000,
  177648610977016718770471470634220167994500000,
  178405551626868197345743283221963793039320000,
  179166309025071024407793629507068544626240000,
  179930993987641407727551268180832266807560000,
  180699720310372891063366296293679624795910000,
  181472604909913637349916371022118255496030000,
  182249767972287313178014755976619198918340000,
  183031333109369453993053866724949330091480000,
  183817427523871934624821733450517058372500000,
  184608182183432156797664447367424145340920000,
  185403732004451238246645061735762283205990000,
  186204216046379134041899305884726345539090000,
  187009777717201641777933218691032379865650000,
  187820564990948168926365724473726004362110000,
  188636730638108618407500216562766581773760000,
  189458432469924442642650319612585008144380000,
  190285833597603137867793066106969490647320000,
  191119102707598553791967788129113614559170000,
  191958414354201756246709464903688058257100000,
  192803949270800467630238017591182142496110000,
  193655894701290431925144730485044419765470000,
  194514444753260828946395122329704463481900000,
  195379800774729539547536205645883455872540000,
  196252171756374926836485883541172370314600000,
  197131774761401024065321507805492728948590000,
  198018835385384139868847341858781874179840000,
  198913588248685146986360905430046841502190000,
  199816277524275220933702712500235065817830000,
  200727157504117270647725490562152117490770000,
  201646493207576193995578250905964523553850000,
  202574561035701261602071099332533776760100000,
  203511649475641487327948198071680963039400000,
  204458059859923269030446135730016976594920000,
  205414107185850980386021547019481658935550000,
  206380121000888205884393755695782601833340000,
  207356446360557189478868167498148977756500000,
  208343444866163274298287433339282870292660000,
  209341495790526588294255816435907036066060000,
  210350997300901321196420212800148874521260000,
  211372367789403181603802295285277068614960000,
  212406047322569335733533080201596021652220000,
  213452499223174418929716011916752904653550000,
  214512211799146834678708728461060672998430000,
  215585700236418009723138311528600752353670000,
  216673508674833525944336543034296482801440000,
  217776212488918696763562365958932787179950000,
  218894420798389166549213769030757248401640000,
  220028779236908134109285128943156450986860000,
  221179973011817443406812344619538635015490000,
  222348730292528173890787002164870500564580000,
  223535825971094537223393672320526093244550000,
  224742085845391637022316899674478918313980000,
  225968391283497860300144566281232982873920000,
  227215684437616616264676849823445081710820000,
  228484974087505365858419281721580773592000000,
  229777342207337964552493758674245327711110000,
  231093951366746441777877407730557024478910000,
  232436053097151340551818066160194575786590000,
  233804997379254997369457669265102595090870000,
  235202243437849700669062258384656161069870000,
  236629372067295218329263661871664226055150000,
  238088099756994653333208589174319058656690000,
  239580294943341165492256550351157784461980000,
  241107996786073641715120174922049045562740000,
  242673436956949695186835924687329679727550000,
  244279065042694032428016726044006645679470000,
  245927578309829319991308693715836852788930000,
  247621956766465611821104175760410726070400000,
  249365504699452600334552698768675327301030000,
  251161900183973196831743734946940094232560000,
  253015254484035079229897746699862182140350000,
  254930183825274925268900005903560668230060000,
  256911896782003301709096376725938171148300000,
  258966301560220246713583946984726935625080000,
  261100138898607125881312640558462589979170000,
  263321148332918442136474368453491479158400000,
  265638278456124554693928985216189175844190000,
  268061955995951572973012844158802181482320000,
  270604434725121567595351734780706465244290000,
  273280254567639513396670736256055533885960000,
  276106855701486075815864751348271965980530000,
  279105415336147455462878497201018035411830000,
  282302012167141480603049785713665187358860000,
  285729286448132224762730402289889752864840000,
  289428873864427016471267961605917662382130000,
  293455093212277695613465766655281186103820000,
  297880757079918367935533751733601093292240000,
  302806773442661203432635375065729022026060000,
  308378974720676835019617101352196186780930000,
  314819918854365754512514286034274846315380000,
  322495282572828934064546047011390328407290000,
  332073229387803436907233844976872205734250000,
  344997561704339572585809037263970822095870000,
  365542041902694135949158926734980923356490000,
  392898676307723697365657800073535099727450000]

/-- `drandn_zig_y`, /repo/src/util/rng/drandn_table.cc:263-520. -/
def drandnY : List ℕ := [
  100000000000000000000000000000000000000000000,
  97710143059781657328159362729813608439144000,
  95987861830851198708530747083500500593800000,
  94519830763172275526042345750177275931492000,
  93205927637968316487289757721335092810477000,
  91999056461098431764292215895295612426708000,
  90872536850199214835061348183309348769399000,
  89809472692918132063610164861344742348592000,
  88798334868776407938174496936589719098265000,
  87830823196574370681152799100743777671596000,
  86900715699488783661831592386448619436123000,
  86003198695310771143508407621247613406013000,
  85134452455213351887604311674095924900030000,
  84291382270764030878789849210441786908632000,
  83471436894220196072748108040428860476823000,
  82672481886198503447894456175326638458500000,
  81892708786230877831191152238510255756410000,
  81130568410951346285152688264652454108727000,
  80384720853966818104961028490507146671007000,
  79653997325589086134049743304075263949926000,
  78937370563139629126144999893277542923897000,
  78233931561090620760779215658864416127471000,
  77542871038841872034959312731672298468766000,
  76863464512957350126265421152993440045975000,
  76195060148556606938099328152347311515769000,
  75537068779604528179520347985764772147377000,
  74888955640601849504753989572591876822116000,
  74250233462363946586228674595631105148641000,
  73620456665171395171150953151695262022258000,
  72999216442289789245163530995164080650284000,
  72386136571624555292306033016380695244152000,
  71780869827208225919436962447761629846354000,
  71183094888197214638626830751633178806514000,
  70592513663134363465119502922817673606914000,
  70008848962888827632301824710481241709203000,
  69431842467991227970183776285750809620367000,
  68861252945830284685844319136904800870980000,
  68296854680954849060826525319889412912744000,
  67738436087972562029725642762656434570090000,
  67185798481586637390279570514195484065567000,
  66638754982419534075898173708374372381513000,
  66097129540631218699376150937929708106822000,
  65560756062102073854144790310272128408542000,
  65029477624233120733668322976939180080080000,
  64503145770312394352563600818939448799938000,
  63981619872977682543730218456268232785078000,
  63464766558631604702117243177461602954281000,
  62952459185780034524879469892688632626232000,
  62444577371207178677044516423855213815841000,
  61941006558699681267031803000300271833112000,
  61441637625712044540543868564874685489485000,
  60946366523946498346565175951994319802907000,
  60455093950318178439452126982089907869522000,
  59967725045204217215050190858960377227049000,
  59484169115244326579532152532436839464935000,
  59004339378279415252292333660122380933899000,
  58528152728291573514808956990584931645571000,
  58055529518449274802406948059463331901497000,
  57586393360571460627939446852430194212502000,
  57120670939507502871174474123883157972159000,
  56658291841090886270483270581443946412037000,
  56199188392465289115969284683416162806679000,
  55743295513706192620580204266644841482048000,
  55290550579770611684280942621505516854086000,
  54840893291904496903779731020733834156999000,
  54394265557723052103861888229019427853927000,
  53950611379255518091756921306156868922699000,
  53509876748313642903830469887971332809684000,
  53072009548603402340942805648360547365883000,
  52636959464053372561307200805380546171364000,
  52204677892881486193877790813466788222286000,
  51775117866964833282256847057922755084292000,
  51348233976115870657013634525966949695430000,
  50923982296903438232466704294054693491489000,
  50502320325687868055519400001251995036000000,
  50083206915567987752317333227658480154787000,
  49666602216963105488828703060200098207133000,
  49252467621576163735565637158408947016142000,
  48840765709504905923792582311815380080589000,
  48431460199286966391055662961573347047306000,
  48024515900681827065810645949195389903252000,
  47619898670008018888555843817211865598438000,
  47217575367868393586951412943530925758751000,
  46817513819108799936054114698702477426195000,
  46419682774867687062147342258455751107249000,
  46024051876584434986219677987673293273474000,
  45630591621844447569231704997516629873644000,
  45239273331947670259232247014224981285224000,
  44850069121095692848961815346608972276954000,
  44462951867099881063144679871346198751780000,
  44077895183520220066786775292566602502120000,
  43694873393150539568011853086559881376161000,
  43313861502771944147604371577742199406202000,
  42934835179101490473959311378049363838727000,
  42557770725868171565655501131786309088056000,
  42182645061952854054166880959364505088161000,
  41809435700532995058408686217532590490009000,
  41438120729176869269866703704430221932853000,
  41068678790835732033033533827648398073507000,
  40701089065685559797731080111660162401677000,
  40335331253773213795971001871532024551925000,
  39971385558424640810229813703280399295181000,
  39609232670375442387708520008970936032711000,
  39248853752586657512831450067558591854322000,
  38890230425710805756719760928330487104176000,
  38533344754175416808244548916295713070213000,
  38178179232853294203632946168802675401821000,
  37824716774290534539041189199259918041207000,
  37472940696465124958127942966790158152435000,
  37122834711050536378321509922706411543913000,
  36774382912160138720935459444305593024183000,
  36427569765549818348471938778132539482613000,
  36082380098257415141629542154610987836350000,
  35738799088658739123861365905021614253201000,
  35396812256921266582688004320722541251598000,
  35056405455837527751863404168464199983646000,
  34717564862021224202006525194619257490558000,
  34380276967450188263324649395880072688669000,
  34044528571341022704513715191332323684037000,
  33710306772341224734452873323942156957855000,
  33377598961025228659006865161718025092341000,
  33046392812681765646610695941198798664118000,
  32716676280380359780964108495915354524186000,
  32388437588305720398309042740159213735751000,
  32061665225349137857456874312056527287496000,
  31736347938946779095046105134692027149867000,
  31412474729155210107270877750718085508197000,
  31090034842955030345732977958839171606087000,
  30769017768774066314842706437726604917771000,
  30449413231221836981439145264349832586959000,
  30131211186027706191992159290293784579262000,
  29814401815175357014450242820746694860645000,
  29498975522226697431010626615499603531134000,
  29184922927828677938623218313107798849160000,
  28872234865396900592307907751354889569484000,
  28560902376970177281431326199445663860388000,
  28250916709230494610412438849511573835116000,
  27942269309683316226415074334799015787212000,
  27634951822993293312218272828051368605884000,
  27328956087470767269778128272239570151214000,
  27024274131704795524032414189008477478637000,
  26720898171338663092187586112213892874934000,
  26418820605984061550882552316110718493292000,
  26118034016270362383154227114978596091532000,
  25818531161025777033446448882614276953973000,
  25520304974587243866429760175140728506449000,
  25223348564236205445040703287951089350827000,
  24927655207757690911357217194987967445741000,
  24633218351120271839295970683902936571030000,
  24340031606274629624730998500581335974857000,
  24048088749068838136657699777742891456001000,
  23757383717278511601025178107127189264247000,
  23467910608750210715487370671805678057353000,
  23179663679656762946231559480159134523092000,
  22892637342863232051946593276214869661089000,
  22606826166402659405020407479280919460507000,
  22322224872060653709884316120426461793613000,
  22038828334068311308967507561318299735831000,
  21756631577903045875915007817402724299427000,
  21475629779197184617196315914444681993700000,
  21195818262754269627103770323728326729906000,
  20917192501673378662982363124234197471196000,
  20639748116581921390006067185129978724945000,
  20363480874977504647401014420404763427541000,
  20088386690679872040895918849923162952109000,
  19814461623394050264490313245646646578280000,
  19541701878386074855845425113365365632490000,
  19270103806273008501979623896538384997257000,
  18999663902929132159333545232238193989360000,
  18730378809510626618071126026077166670802000,
  18462245312601212801216672698689791332072000,
  18195260344481567868935457249479625829736000,
  17929420983525848505828886869650773405738000,
  17664724454728711287572300026038618625535000,
  17401168130366879533918195860353606008175000,
  17138749530799550586045686129121889962335000,
  16877466325412444069517612504904846559839000,
  16617316333710733753661285133640390654364000,
  16358297526566644394840129711488074804038000,
  16100408027627982642838999627343810061575000,
  15843646114894510867801124404108392695889000,
  15588010222469696381981246746661895485886000,
  15333498942496038276142762690756882193455000,
  15080111027282906023116049870624877371483000,
  14827845391636684160960226591674526730458000,
  14576701115403888908152695014219801805666000,
  14326677446238810657624853511782347936787000,
  14077773802608414229267912859411282511246000,
  13829989777048285232879422379514977592407000,
  13583325139684684457024033132910290078144000,
  13337779842039252265351728654607654789288000,
  13093354021134280033519282915310810722076000,
  12850048003918314808678713401235427227220000,
  12607862312033536399092596008708611066140000,
  12366797666948689826015754869570351104358000,
  12126854995483211078235964361371479469653000,
  11888035435751205287131402818512349028879000,
  11650340343556353592274375460813296001561000,
  11413771299272139106667327268507250437324000,
  11178330115245303413824091640083047138887000,
  10944018843764312043988782066628040468004000,
  10710839785638904125559655450272700250025000,
  10478795499442014431401570817570245708339000,
  10247888811470482548756982463245002179519000,
  10018122826487685848547478512093888980417000,
  9789500939317905159494075800763468464538200,
  9562026847370480083242215776917483083252600,
  9335704564180905316801749663224718744913800,
  9110538434066218361876993842018990221731700,
  8886533148004067465233930811496776414060200,
  8663693760858302116151111529895878504703400,
  8442025710089473587645651428412740813200800,
  8221534836106514193521891536997614480242200,
  8002227404436703005809758751376570273805600,
  7784110129914741542297160550867296535670900,
  7567190203119805932149930655095104725660300,
  7351475319321832740330612682155830839292300,
  7136973710236302520965338477831885199975700,
  6923694178931524053494106496486892865505100,
  6711646138284965247349737188509166685435000,
  6500839653447860044669422835417194050933200,
  6291285488851243235176218318582819222228900,
  6082995160375649620207384911385606329759000,
  5875980993413189323350265258483204888762000,
  5670256187679372421471990679819885627921400,
  5465834889788532920313658680644408605076000,
  5262732274797286602429149948711994966288300,
  5060964638154926453533950791996431917141300,
  4860549499789376207836569601661302897355200,
  4661505722418081875053127299812771866527300,
  4463853646625670365066882588900298856060500,
  4267615245822177609885607514617067437257000,
  4072814304924840086616875944880433735306700,
  3879476627544705470999539254073340543982300,
  3687630277678347060217969345663480140729000,
  3497305863505843240518575903985620811909000,
  3308536873022813547243659200447485346785500,
  3121360074095311646704428796411656676923500,
  2935815995428161459342608803624319335767700,
  2751949510339862959581265153263807121675200,
  2569810552842970581251605399764059711742400,
  2389455006435681929675203961221940929249300,
  2210945821976470718008326264703011787560200,
  2034354444931677240971062796404122963167500,
  1859762669065452769287364893219249850631100,
  1687265091909264931925875510149159808293000,
  1516972442883664852197189579566249939546200,
  1349016217979379205418465244303849459583900,
  1183555346595713843983006460791607139526600,
  1020786168500684883684616333088257533745500,
  860958120302803681107010240827759339765630,
  704400016183382691855794071472685047297090,
  551567983287711442575389350281844791368260,
  403144065690577490517230779473734081364000,
  260280419375567914356387247930280093299870,
  125446107627674242855343012632493571167910,
  44454090067877495505178254032053325461860]

/-- `DRANDN_R`, /repo/src/util/rng/drandn_table.h:9. -/
def drandnR : ℕ := 365542041902694135949158926734980923356490000

end Verif.Normal
