import Verif.Lemmas.Ecpp
import Verif.Lemmas.Pocklington

/-
Generated: certificates for the prime that the permutations of 256 bytes use (aiootp/_constants/datasets.py:45-369) and for the primes that it rests on.
The arguments of `prime_of_ecCheck` are the coefficient of a curve, and the coordinates of a point and its order; those of `prime_of_check` are rows of a prime factor of the predecessor, its exponent and a base.
-/

-- one after the other, to save memory
set_option Elab.async false

namespace Aiootp.Primes

theorem e256_p271 : Nat.Prime 271 := prime_of_small (by decide +kernel)

theorem e256_p59 : Nat.Prime 59 := prime_of_small (by decide +kernel)

theorem e256_p5276371 : Nat.Prime 5276371 :=
  prime_of_check (rows := [(271, 1, 2), (59, 1, 2)]) (by decide +kernel)
    (List.forall_mem_cons.2 ⟨e256_p271, List.forall_mem_cons.2 ⟨e256_p59, List.forall_mem_nil _⟩⟩)

theorem e256_p230060328343 : Nat.Prime 230060328343 :=
  prime_of_check (rows := [(5276371, 1, 2)]) (by decide +kernel)
    (List.forall_mem_cons.2 ⟨e256_p5276371, List.forall_mem_nil _⟩)

theorem e256_1 : Nat.Prime 1889318316652143689537 :=
  prime_of_ecCheck (a := 1188858471648752803842)
    (x := 1364234854162865282231)
    (y := 523885386332493835144)
    (by decide +kernel) e256_p230060328343

theorem e256_2 : Nat.Prime 141930486569498482964061685325639475329 :=
  prime_of_ecCheck (a := 55624587999633532531478638934262576876)
    (x := 19711278011365320206834151332149528596)
    (y := 16272749565185267460579377297945830619)
    (by decide +kernel) e256_1

theorem e256_3 : Nat.Prime 5341766564367945091396021189905884986072655764280638428635347 :=
  prime_of_ecCheck (a := 3412119299759622374912554759426066018947167715626875986826972)
    (x := 21339198175090683856458359383370903907701192912382328270684)
    (y := 3840119049672293762735979939737963856867855756814166098600010)
    (by decide +kernel) e256_2

theorem e256_4 : Nat.Prime 320334190287178627975929017590292710288665806313269789752537395422340946055677 :=
  prime_of_ecCheck (a := 92869971469280182870050646880096403636585785627281446012718818417788348804843)
    (x := 247156166574380063955328017808766606444818009716956660649901363612810940090025)
    (y := 218432912069202691270657953323401486813828585162799686051777505898064162841358)
    (by decide +kernel) e256_3

theorem e256_5 : Nat.Prime 193100812229592579182498125924237691253908138716246969817499842872831161676275862950902749493 :=
  prime_of_ecCheck (a := 139217386727409697464496218258824619915504098023677311975398609316572064933493935213307260086)
    (x := 64928210114203894870768511323784280253798465001453656886724756614751435391580149243596725187)
    (y := 35625979012545290305787167823702248407265593718563917844443809801683434120545472053358287887)
    (by decide +kernel) e256_4

theorem e256_6 : Nat.Prime 410324710496133796121340154183877875345987598293888799616272600580523004170504056940512935894091404003267 :=
  prime_of_ecCheck (a := 68658192793857184561223998631958475982288520894854664170871885143273548491729536241450678930320257113791)
    (x := 174529587259152609371779915011413538976987343353287639367353175096265263626399138813802775555118356900997)
    (y := 32973852152951072091631040233003268295733235001725764211267937176866575841925663039926733206706063997648)
    (by decide +kernel) e256_5

theorem e256_7 : Nat.Prime 4811392792474113655756646155298699047022651037269780524588633585782937899286158733978785427621399704827892537679963 :=
  prime_of_ecCheck (a := 2347355532951363650141722605753997461985946514142564396984319851655383073373545556685017484416103680600422246970675)
    (x := 2170904773893359553179313268324645483626686316351872404313735472005249094276502158539267200141831220419047681849574)
    (y := 1888352660685251913122609982862664509351005576392341866824266327128804288555494343788699396349621852206466648111310)
    (by decide +kernel) e256_6

theorem e256_8 : Nat.Prime 14440487423438549636294198073048335484869571126834717287998556813281696991085002014685903187444226671171496621926746136132484913 :=
  prime_of_ecCheck (a := 11732489584580633187334493270216608666126959349206571154301694847987819134775559709930488645552212993241880414754610177754412469)
    (x := 8899576880343645355567854254707050144893912901769407890558480852273718647235008717960168078931954974314325056010227202298129273)
    (y := 9257709357456425665603196924476622103566451885166396575689707432565658657117367093307800702993990585300238147946914345244551802)
    (by decide +kernel) e256_7

theorem e256_9 : Nat.Prime 470089427648711026562733976202561960939962231748395084144060718665449489541631612126427649437283652444652387108813144644073844569516891536012966597 :=
  prime_of_ecCheck (a := 175576703899060868412987302022578356467158525634009426966783580495373080629925802257131874560803774918811560967287385106958287358748422914536517950)
    (x := 306429256532221399937523572867413571349967853816848667689494929107386688164575198765774937810262662559355191816968048584587893097998471499326702984)
    (y := 249246753069545518773826963284323283790638803759648320110494874114204737783820379958146785161676558791795917620948439468300172989850247101787458970)
    (by decide +kernel) e256_8

theorem e256_10 : Nat.Prime 539146404906801867523536740093263043393661563286516592521608410019104925093271237197933012698641303249094260785620058762530368776735485179924972791801966222552455507 :=
  prime_of_ecCheck (a := 461103051111165636425632597707747743858240656513476425312522294472352649775658308222153716236813792058992465652144082488384893986457596310487651310217794866276907063)
    (x := 216846275375419700726105676996816502260582950808667998313395938432719000888543430548234475953817743709860631297033602396791984558653095032954916202634500730974981551)
    (y := 114312569280162834308941689951033161447168011834219898135289514147474758797895989398784992790588041576219731070655808021746912758618030857070748247635894925193720153)
    (by decide +kernel) e256_9

theorem e256_11 : Nat.Prime 118919582210086142277771703501811401601966533623865480014846312233839734025347239565020844762680118057493582581247842239078703438501127137742245098284239437088931161555520775459664341650493 :=
  prime_of_ecCheck (a := 28191415583317317120467156873269400880847531474068747759246870741483549484725870645329432323228057541778199194388780915410548676159044796271124872021344882901808725329766637634111423663670)
    (x := 76275161247920337185787824145216170992473753379722793228990461210070823543622143754313939548473820568834489833215029011226214959149965215476947164716108442980984592424898885415651053239755)
    (y := 92018830078620174213865454237757831604082444428136375593248039506151216892476132800247376322977210114359913907913709291503626313763752585966871026011008875613516121449189838592442113981223)
    (by decide +kernel) e256_10

theorem e256_12 : Nat.Prime 307416568001710223667217862612703293980302739344430572713960780789979807129074758326889781477481343805272046743601554466346876691871165372584162804344689788627494767052029540194015281682874290284238868509096889687 :=
  prime_of_ecCheck (a := 81387035645901926286389884283270436258158102600335810951506204694308269508448762161206089846733730261746764320429033471285931790235725249070371552212408636210105799562602251455094284172392502626993427771190276305)
    (x := 181404701579803779785054624571487565366973363797919575632302245391211983515664558751110398753769222933189729378250601428856621050754134264075892078605232955288311389132369714661203974284245388413436742539381187309)
    (y := 140031215716285497842466453997118905666091024653948050978782867630311543479360257402493580076454292451816123749793301436834447007642111656850257209588353123071259297955712247874919341497482818427889615049280389821)
    (by decide +kernel) e256_11

theorem e256_13 : Nat.Prime 1281324541026851832592342688064408783384342446406261787895196475061279326866995699050118385021369207044797724719526509228977231914537667644891376448171260476406004596047064587024852887017140273910795216038562930915635612693 :=
  prime_of_ecCheck (a := 756171972822497336924483640786218852540297706397036108063580666641834017390602698423069219084112207698001853053501261220880706175958077646757273554322932739449278111628987209362882706320750705825623620134321305232570712791)
    (x := 1049667882652631121445232812215435330444025977956234355890798754430879923562019460759150192284886406462229387540378838735931349963508510318573342406601295819895443401881106876780238303969887929497566551385316576267300541744)
    (y := 367835058775666433215379349812466162634268691604906072363675864696205123936629845826455228073876442057789772644344724678811810204178993568995434485927535447514736827409279791978656275024868436404973320663376708880950777279)
    (by decide +kernel) e256_12

theorem e256_14 : Nat.Prime 3082587817793881371425025188304962823534037528726221891207442913563788705861078846666043118637424444134774097369936129051214796279654419865420036866061934071069584197527812904539921032432698342840897521456172249244260536073656913161653 :=
  prime_of_ecCheck (a := 583891261316377265149324896179990807514151775934961815522599971431801811797671926828243242359375432885959887869089082324272608617073591922689344228431250398545949324014795719875282727342252745588581346465871007514830662078830237924488)
    (x := 1690479029429436859454337029374622453905690675176373841630987900139409031032226220603725655283483509264694494190734679612065847400550436598390018328365028336237163139445218007947460151517051076228471033946989487375744719823535455512266)
    (y := 725510204824579246541320319496199061898431431521422647156047113211990449715285308165027469271889933588300466516694271634258602744446658137692157871756068943592233457494351186852560279646659848157743007220810152930684394634674027242263)
    (by decide +kernel) e256_13

theorem e256_15 : Nat.Prime 110901179895455370633870184558706250200673453841402251731371697194332450418162811957496107338091460067007783065752726098854444773343813602500324292275097276702823782260988117858282428261427576089906780631385531788013685293806051667813063182062597 :=
  prime_of_ecCheck (a := 91187431539480833555658734739351332943360878065453032127016667880481913347519065770413314126305508248507224947709922453398637046610151537444547565237492384329255624296675204738424095838808647233099068607232242541575764824311439440730151745915735)
    (x := 30366252804594204211094979230424320684833434149379555809735397195940867320309631759497328444979032807573331369749157045081079467676213993136934900344960339675835940382636484017348878759993752433481649720901194483909644833727928841434767806013363)
    (y := 59137964464390939868813129004293574885523772333688232991728785912364086228605010473362414217762187377912396450604062817678735073096167235930058651910164517976681987732862834868912531405603430150825206241895219590645064519278696350053570621075863)
    (by decide +kernel) e256_14

theorem e256_16 : Nat.Prime 136318279329293828812128192546755918281923104534800996603579643661646516947466295784740571881528208508511331540430623177812988301690755422674849831162681564239884917375124618055653947690490381188829700764121873102185197730700862469354851327984465220155324567327 :=
  prime_of_ecCheck (a := 23309564672154758277449209809107920206876773885713560946734273994670141353981534070861047264662256103855136871444928187760712391243499262784469532257349081545037767620631280973033355481767487510606770221164192879983839244487864874846565996045268197488853851284)
    (x := 121031297780450955182324810006248691740646053189025808606785400538204396073711535514938272135016139574082551081485425405975848950315714813358268442956861288545033611112996822269720611802667742193139176175285228958659256327289733952138706994537593123973435186201)
    (y := 9701519215610893898372493440518228432568628190743856177782198634423890965780467331461742501286702116088825294548151575808150102416068955833342534484248365590369569292734998243531164419843339247229729534802866236747525371011157161419714083879872669388321805293)
    (by decide +kernel) e256_15

theorem e256_17 : Nat.Prime 44487695983355784992013775243414633658494658994478202085776039603094292637407800029005525068820712984055071419190443463979537831946704893344427334733230526112955862330981207494974330444578987981138403750132165185916505149536728864994347561205448619172534449749485356610185349 :=
  prime_of_ecCheck (a := 26456688201946267072111361219977900975145299652581581187189517064346520705966628937213781167315719769616219646794079371936354423868336433046994302430926970041381529162210581815022178946566384392019256834561276617055586767032188222386100086183297858196279265042589236315581110)
    (x := 23476704800343714550860150628265939924222280824297130000789653055874471858985948455665748632174527484883338778467449326017411333032093254499952768040307037118508639999354757429597132513497585839764503897113107417294578712738846670119768495359182048506112958344256887376842244)
    (y := 36032121208711390805446906570534338145109095816782399397586252969128601658087152632268283724339886651231307301357927829144338346017624197121350732247119587013337260567607952340741787468840770697286754188575737084421038234377922986694050154946186874614781576303857869489387725)
    (by decide +kernel) e256_16

theorem e256_18 : Nat.Prime 314701360855160351689649920447911096323077764166990200645157656511323954097755242539030235637377096958845477223369374735616397787514676095587488920186891862461515300325255848559837513220441706167656406970210785989875459581194905200567639248334108237360056359326359353446538022316294231247 :=
  prime_of_ecCheck (a := 85367106818147954352429909383248063482801117908249462444975462409186372839324043263837450329541383400664461467217101322355830264635901398513787776285689659234692540502276385722484061899823332500018318095725218130103517954643798271036504931379353480399581238007196383557520233429537965238)
    (x := 105463051687618379743014024832239533294070227550690106161326578950835000661241203113763757375717179164203565529452703813346780312075496002852555762082918346227824845203230597039723130188868441459003882755641360042052589565594555747076386100028614101254418221852031626305058969053969268417)
    (y := 239502837796183045752288274305631953862541205657578639012379609492390497458054209823248965975750144497772004436580188153000906337443557893098775270374700764702490961015182276154278176399230454992393062980332027377217856268174700336917776695022481944240959381398279857718989844092298342999)
    (by decide +kernel) e256_17

theorem e256_19 : Nat.Prime 3094967519442994833382599493916204477791801759221110825200160230267595659784137204943260050824700380957683432060418584066079121983438460239739994081612140227287172779112994422817905428445402256759482162919981456540977316542442565199201890241547712197018997632047262923218372399128129959924002354942110257 :=
  prime_of_ecCheck (a := 1888020326100028640846434756184453061581979813722479425257107273840064985396821999822492362085484590608012787967616524571880698114481942256347542461247403840001576461751489156999679745634404115117318658736717989879859627804269995461852113943603327775984617568411875279571071010120225304474903359334727248)
    (x := 2525464427318312811298372207825162959221641523181304240977565803490782440552983483318247079347381765059896058787299353600294728969292032360979591139556033323132352149426223284163337264615504390370025246449395469055362140906324401862391634544529271539986709212708677756209807238185673253625162644343766853)
    (y := 528628487657626682183298291147956007971803640951767819483944245662790556842389108194988799869320278393326169488423128095556839754978989602899483737270996553531247447382355213611607288790462651546234228848464045512815491432665995859761993658854692615080181009401018468870982453384090293311917788691012057)
    (by decide +kernel) e256_18

theorem e256_20 : Nat.Prime 1240606177823052279709721555948993415929430702760174587425931634865069004115627237567770528975357081402217108887168127341100196023245996197341177834217070398318413216941249890480754529490774429851300606838723910469727944624208417420606000303294934260019667644957175974113569175178032347589532650174169170127164007148829 :=
  prime_of_ecCheck (a := 410771205493193024036322462721671771415131143043051233840818380056356127748948803561766895692293457475513333625431706651065496065402393562901506568306411018960436772044610226031250631641253244784151214368198090234224755556583638523359227138518987883424387247959756484386762948501010095708779351623174623520651436255572)
    (x := 117565808747282892129911543464149413701626909270658692055651547314442081650552005752853122196252140639210396097386245885625693970040947260147004534148739207304823919042342745901095498651038042433947799983841345078664243311022489547041902723419374357058353130615260223899253406213654379795648908288583192218843516804270)
    (y := 73414007170405060831742638593173842844379177845036030768999087249535813311001842248302826582423526605442069033906954681137912154097674847947160132121166330595649606511385907792788821809717103152721617824109745757114304958112822353958252286860840305308619163550786354085563716405781271600513634959719981068537810248826)
    (by decide +kernel) e256_19

theorem e256_21 : Nat.Prime 918211189827505476087337108430007099832195689327076408817331547924660320663342197861310949723469942462794514682048330387158769075822122612612546920263060383888388524497109303517454482861251966858306420748364636713398222706907378677263947740644916096435829730993202951919502678530015027002203906924848486160247168985189593571022383121 :=
  prime_of_ecCheck (a := 245369556149689231453290956952543394126034882964545281616929503316035294192312090644408756892391608330873680649442225023249897634223050831708117509255664498373415230882457030606041789649273040143394765378055800853550559777375815095659044014915175497753623322805181279738955340900920191371499916798080633278524996305309210735874851488)
    (x := 688013340628499211967631685672545252586214173337205499086006818136124815468261559002616877031145115587749540046076579000637183466563172585625170796023871650179850575724464471101869153730555407790340077401923235901352255897571105202291609330852637675687688707971634814707414149174362234311913241163131679561210143756269234643326396942)
    (y := 480360420235469836810812603672407227643193649271508297408370483702938573469568480342928513056748730304025344071696418465651719632492439779984218231882124347782660963015057212360069586658872423185839770775084325876256521266598603028794411439220771434808639057403143174309814275920567270277816889523953928426588657824081123414629797000)
    (by decide +kernel) e256_20

theorem e256_22 : Nat.Prime 2108321642940853363190102832987744534395611228288019954920300741148893197162092411212800238511350336227621614166712879009070928108379395739116400333756128757753487025205430231915162501821903446685967112194811322391259202462265467324984232830581833131553732298819317907943209855334750508294682719047349855064287179604521146553987516996112918869 :=
  prime_of_ecCheck (a := 1116623969474892120266208695148111968343620575530222802087399573760816138534741917940905512479867139365103862930744343293926631330109319341014765412285569182375155160130199783191872891867611101746345471410941752691844249069005166217442087586651878221265670627484989809511747503742594656905034514967605414975044048949856250384805969771506316779)
    (x := 1614993516830409707301271400324261194813656954877815922904804153620920512367845832474010146757973378182289888304599319164250401728292575686159736538056457632579479580980552812404744842917654321895977612585565422914972491440035803137613064576374370369680817927552911600719373591640187331302878019161861515202590919250706450572145639712168533390)
    (y := 86822158774744895184490573873609973086747619567944173858078387537603863262535047295431663901784010259997236051038600893385865883417177923986487852549424239425712129340518005918289802396752992738139601675549312340220960752917477233744057467303485448149718447169528546551561700964747122724471806231528824681861352901141452823221812439022351507)
    (by decide +kernel) e256_21

theorem e256_23 : Nat.Prime 3289125657063597395506072986559557697204093853428502571715107102690377094565930548386428900870407451302086982484561289759000981451750058928546997143931381095775173062692550016833044048033563941721284771872559621400647285229945722722420745490475182909321445784201590767397656493916835308823921580880853520456082438688887427984129826167155251351406267854143 :=
  prime_of_ecCheck (a := 2205117059207084176203472405135940745914406737532702354752469514423886199562001776693644330701835519046269048561375797720844391622455898224756389664956785677471297645213599003795471373047260171280428892506993468584375257626772339524026399882817057017651203217353844852666778114201398405704419181878028187903559321923273277388259871050874329960288829615255)
    (x := 582537221186768102961683507922907561204047997818069619976227096097384807964147919928200373707744872856182723406259277513449703141968487244310609495316404953591760239828071850417801287386602662785903672737216158346476578053948522287107459581192391966604547999807055948362639457321947881027728758289645643702549945876908282885593210226766646462422783407915)
    (y := 166768185188349793192170220256710424952792185103441079334843925008714826018372816453258063793510538128733497380312773341195822342258917010365122984640067386496371469890168912260504276320136471694199451753942998317692383576455092356001723924843234257803306621120842857259689226800048703989496464578044616714505297240319147065076306429787060053718180271270)
    (by decide +kernel) e256_22

theorem e256_24 : Nat.Prime 6384114411954888036052638705492423219547817788213099127342154048721230440083863567617382351236599392444340411300870434336163385957426481268653509539377965072352522431731444550351886651835783782782121907242601742129197804620074709411246901803770232834169029273832579449448081908682645804136753675778422181332952369380206924142688203088461650889751744899358494847713 :=
  prime_of_ecCheck (a := 4170512267324711140271679504907155949372640594929246095148189394762912951695999601400081528556269777094033783562391215309569592373141973310071786855493817433560697904414759297706873991158330491307534888465547768785451957067876744459793655902190883624404960904428121320187687356586163508896525792519079175927177395878352191198503404715126124507223343198551258505104)
    (x := 5151647029073032381194373556531683786346895937449185272512626528883640254603231078789720652546180130652352224993406442807907449830873264823944142106821978070999377987502109259011355673620549010210297427621679116492617100856324823257895460326330933768122162848693700583472043978445253749993630832464907530844935648142439179663628213127287052889016701364786746702550)
    (y := 3199758309850018909764801129833863828206546888939408043750426844144470462742245376210488162829771961684877373903112340681985907254012736869874126518004656758048000086233794038048744928753595367962331580505906011615965259999053809810328317866305697256027324802159259713595514511712502131356894814908214093658056779584572632331541985650170100849229811003325811603231)
    (by decide +kernel) e256_23

theorem e256_25 : Nat.Prime 435730676733193856086257067505402434970392726227538611844774060023999741578605130361761695216472879880329682114332455611818567006571834860096064143668596602475987819491622888284284247705102361669004860503022655107115215113538573839034263317088626638334730105635966786842243561886200977749002868268864116173992600806475106041196857733886837050225047222572055261503205678337023 :=
  prime_of_ecCheck (a := 335280560372043854682690590664939750431942252809063133832026667306153014002010474932554010086954748349023629314424115962170630325581099308545564853496039024488992822061993521796874875649060955587675348259301362630700768592579528726724797412967405635360304492860130311717015246021686891965762903962873738817163098807613065647772937616617262786715154782719541922765042922411380)
    (x := 17210622157482567712079602451502292215615547619612577385718574509567659182908614805031582295905211649830606135610269669729652939567680084876650098708464962782710050490127701344296536108972998380225271983207621149677574305593836851789998974249617267855072354499856875513502145842245239874765704824636198858551505787763392912020769543251210211281067296961964874310622946960511)
    (y := 310173195519493244379833610765709095933953523697394611585311237400722742507866630706762456879674838984627922791114642595651284476025658669984494437275549886997590053819088286776777602951625456179782978478338711968203187259232963441829732717082136654311098874506711758005478567320481888390636874831163722497699535820833954749423906005816691629110807109210416373969593445992663)
    (by decide +kernel) e256_24

theorem e256_26 : Nat.Prime 377382034099533074801009113946602095551799632705536063637273787019073139063783106787633830021438422512300320021964050200734616116949841242600783405717632071670020587702038006308882338209021829908433233138011472520566483719541188801369797155972689105218309350894657274058060382703197883580848704883000127362404887979045083958222509646607189129706175104471365795003188293877680673559953 :=
  prime_of_ecCheck (a := 11145512447468563301310280207141920242296031053641265275168118869194749004467202869478117121702627848955782080072822595477285374652002333558178547593506907478327034378292084184907379793383762654362605674860982106262293268417360517334229158646023384103759467529862960539827124237000325383652879352614468558549014685518129260070842291319383252859365322131425286977110082565531028164965)
    (x := 236033242473349443112916288707701128954181305052885030400402713073473563415295549763004228825336154468687332509352097125214196990139144960000082829416846156602758055232724141052294283047866443379583215353090965609803946255015989670452219195511667376075967506132841381546416246157353709032222268758619141584790597708070303773652578483723685287754413910751919723432670979561493548705990)
    (y := 32658306745171286016197642002960921365524500228770727517080655271948979686762782098836146170641093934183622477312816641434243585665871200544875718945672305074694634867035515802467892578211756057557648676089223624446605776698797807442871327458843998021021388249023710651133152343233808681880257289662711141735342765152824532695250073698584121241888869196540349450286579560302824885479)
    (by decide +kernel) e256_25

theorem e256_27 : Nat.Prime 5861324664809148673402484230656381332905355187033190142919049264451435873837732646139477780997709570489501313762589913971570504655009227666487548010105835459171394722325972607286804298090835554143988318445963219730760922790883545626551817801614413301227095458729619266478203552106284665550937734250566633316330440376775366519418757991744866866350090913231166029572791608397713076310807313290300309946459 :=
  prime_of_ecCheck (a := 1495243460972846191863070587409144258140981570142251688334421542574837789127277169224095728715858697980958045475771856248728065143431732957636558829592492096680438731945287578499007601684621357330045282435670910452006221393890577052102919225259347585735362636133387571604875883286844565861820764596465416121624972798537708511722546729584548354848970047741365531258986868514541469091680344553618176528830)
    (x := 2241262059293424440627859290543106508960620620320952999542033206581601997910551827993038471082660044419577928681128163324106758661045894457971057592742269801394331638313650652758554186004491366386319168093712924922401173682129557657179525899400215749584713197520672287666170533807915139273380264164734587487029930244853007591318778471733044754678659447182694337737688402632879688141291932804353490398003)
    (y := 336098755964157932973583124586834324840087912235750806562797247375778485104253937170977166960421038388538437924642795403993832172873838516549686085533876036395949109914683549888854063096256192902242559858525217738870591470571197001195267186382029863489297082443843086179781686443298531208582748592995984643270185448649224546581566687708234096894511814971066598999208836670106473209051668886932605548056)
    (by decide +kernel) e256_26

theorem e256_28 : Nat.Prime 1729689126047537595006750910072878196114748250273953366897609141264286534231479048722442159222700361497234757417668716630678936544684536078714807997757055268807026388596981627114158029127220598527336721585531869614905157040086156679741263441368794200040221797756213400192265809552488564808843868740389049138285287146844507990318532048019824395165454098733903660029766021823531630416626848888214874890993372910736693 :=
  prime_of_ecCheck (a := 1117913124126169354098611064406667149258588507127807805070621031402650680422601101295485407894654579036873002549810587900413690290589628516740410943742187038115575159110364535040045349862536975887878704919489611348595315826150859303709368502633449504884875740944932927856213638871423794269767944651424459508688001030072443943831266390108612255115826993590114217248902423680246303042339190313692858750184766114902451)
    (x := 838018943242499488325340744329411121421958264485027883709690992827849838130796598631495789003794038946008487624049377720916348794822967739111908838695417310894964125734917998942888136025914688989694826886104979346270232462646028170375092779959806843122593036601528748117212066642570308420534931180195329452544334640712347864782191568241014607354568187469104051726222854716073605221374562778328678588768917181654748)
    (y := 1623057325191258622362522685949775993398231470817333491454618887530838887530090213718106524383813970146525363058370774966989414673084992890496986599004969680701848264826775854333180023251261622315733907465589695574656194998896717107474742816558886657419839532941039049169382474692621336029584007671582526609622400399089238539963665364948617644005745507263602483350865894229414749212481080986059434794655092893070632)
    (by decide +kernel) e256_27

theorem e256_29 : Nat.Prime 1001308490986635717289660028309184946930220719143141283026572190768977562507166193690992221507687127097580731564530339010907379908795673047169047460371694111112662598275546005976706129085947553026329181192543917524784046558391639199491930909874086438147349559154292005127916705932233000178422099132420222731205723766241492957135428446171858723284924738602343042383766683469316782918310276793699891255636855776526323882571965974087 :=
  prime_of_ecCheck (a := 150273008857177740766553198190275040970463450768893200230844209427332583329484321683857635174568427582508672832839603658178913015203714855312283230852013288412452462917809466990207150979685479286101221050747395413117518193573338685155021360625456933866743796256104161454856005669468530343014641885485626556269278157929023085291282490541392636594754126795004782625263392062566827813404501544894643624110240041478172770127351061443)
    (x := 20648767129151016633996565665675195949335532960206747952970422867054492723146510343645542601993541581195646131582310552821243883702171958219823706677664451080158528739250219681732139029470020463501585981580412198916680672149280443605180881911288172771916193056804449666480001387351729307855099319438363261972631608703233973139287889449959845859027627934717389962684439363113144224854323102143564958030763168202605043803089923391)
    (y := 455280611610905563031645640744539170889612800360774859552512656285099888619059988348058644434369070789655312783748231643530850659607207706340123827781970285702561732689624019252850751887676253172405332561210702883301463501299365477478306324140815257105873361861237549316409374522188240007647502570820605552283633729079394152955805452406508451802678208064005699844467107485291953513957355077620793851234150967858235786111854650300)
    (by decide +kernel) e256_28

theorem e256_30 : Nat.Prime 1180563189634501169358199181503428031881264844743911488213849072371070153325057338924673197330477398065171082235703227468353251990203993211717467657136886878889789679542328672513450761786084230817396599110423028669921605603059079305299287134818805903898035852703828100385482121207845328728844839451985105158103943213063982409840295348070571962959249646220942997598889569826818880648572767734385581380525626264491265011975648071863823677903 :=
  prime_of_ecCheck (a := 810503919536409089050640314958728334803361458691609608862377046727045859932736657678028718657578684968661704972438630518154361084573841107268779298431285157629221270323880558524018249258983385378069618986125638860338929704209985339293338257436350076358808506425235912794912384833267827374647826471646477739272829778059555109112954539346086511674714438656627879144491710017815726183372715198505675379321869545793551773944300416300726074427)
    (x := 994928726775197736152616462500456738984811177485569956529303610602763188470040358485027033354521631917390729466993146928347957442172447690838780021852381804290571849699483849964616019597685021059579441739445772018100852383286096712485155965483887238790364315584191200884689751845715360072260888476714990160483768017139570634187931916488615543049323816044911034678907232222971607786871586522315596283385635792332372941363178336709609164465)
    (y := 229570875429176712927179154591780753958323462900005966503347639356450854148527748675809346823238156371235049860737052839546381937571045599894526039059108928880642933016937777104931599054239851831537865845236575945353705072687076325684234357958875208745567722519546052809219930831440361900387158969121969548161888490894590033580791138664303100565054118750958588794523168015173197705683932276425304797004728523238415692937377009863837152611)
    (by decide +kernel) e256_29

theorem e256_31 : Nat.Prime 4243235703834800114096700502879350874808568556307534479522073875036350857749197518583047204410149593894024364877600700454149498374387983979439866185978751910925876765215765883737781532710798650148819504980237238638202749843856235389414728385234483152343402830987155428247936077257402989201721834139302252898605974755515671342940964899401000219154037516150609297389086988483354133154214044980152558426602880064621769634359745421784312539494353496683 :=
  prime_of_ecCheck (a := 1280042757317125520071467547135277126195984355110702053712934551694461461799002089389632576917097487741312213486745734967565596121603860821741320554955370995128425912683254464868436198026989304148705485124955988667398951679023200626295312495161319519827550330359898228340341125503838614916986850692365007929220677675173090409505241042915413238858574965608643625507778908180639900247336486278346089306634292295329829620669555084409908730114455801781)
    (x := 884049132591553918319798173318352756142490825106986126429168407677805573184259515256940835508796228968959657686678528941940776087741729311886762290855757548384985460419273762764004304331794559512418909839180809897620539084864342329605269009047444008240432188049848111814539616008041988293540435133835774629863823515993853612247801007529311281111478697895866330110105771712898707709232215714461374202474903068063096947111310991400220708338847297104)
    (y := 3600058864238399981228578422354152391228726471472021591663781678677621576647095004714581988943852008767697295438281867977149631111048979715837597697027865874064565131460569140113458949388096557095171878304212444298154905619156355518595401791255802583617562006066920801713865962662210069848179460876422318886517520297352530242636253884367995997673365621593454303946199200133912091755052150055544303295267302957192760933629289122045772524341440965353)
    (by decide +kernel) e256_30

theorem e256_32 : Nat.Prime 390109788827189081475634853929115397399996360303428906822116035409821336115287631165555266956271542667706135250839856233489975469864675330368479225665236142745743892180810863568549561641718265900932377194109009110300992234057566269173843379592873381201155120110626671240306247154097341289190547579710432474131735213786974659285353742575225512372001263528302256998927356719832980341619453255785626143586747576072231880538838043296653289703432752053795147622396709 :=
  prime_of_ecCheck (a := 362229888210231172662770226788013730427764445394505649436912306770299374485575175186121782144101732147114616272245426118941539363813565979484744673336205914728300764748236378331553924050669651944134243077784473642654353101515370667879656722574017861337879737341902373829698792221550685728499604162220855095559322484576135050310428673435781970963544413360520956718839227169372568013303332337595730710397784062923625932599967318040479760955852698644457323774585356)
    (x := 360517304360383359060508161857290264444843237947198236691885501600639935779881164000438585593067928018830902218111833898242485084779083652383914039995908369471439242478711735538432773049106132882043863559803742650821149127856647520409953895317086417591838363090903501748826487480453041600676857314886118437978739386969720477553188643188300408976350278092001544125286725395687820987518910983983872971644705515641376964958945267056562523127346224813177525763807036)
    (y := 34152212079312367209054831324082692363476618997717160249307051148874713769174874291200506578129724903536218071872156586889430872531679646434559018519366122966672769551530143295564739232143491564592344998578412596019018166728491449504040225453526544466926886298122378478604404215929758118218821899828478655790980890916930881951596753035543292944465012455076301422607061190917013619711013189022188130797140196911780967962837016003344654805726825379214508077225577)
    (by decide +kernel) e256_31

theorem e256_33 : Nat.Prime 146241951438359156761331452325167745393539472372999077039977580542727414704897868077234329331680489632394501571392618124577473837974171362531097779337519822015996014552415405293171368854551137402677452611625052070901443632183400775919126880325770317257810969706882089308159960805864703561750805387421001226120862817087157791672424431385030648391007108157370829671947556817623130443912906200773442145921837184329359186024446619310701109069028735119848756147101599817071423 :=
  prime_of_ecCheck (a := 69554785986525353037472936420391330214072008003668901320991169142940365340664817042902199283069502875706945990230230672329163591816562880708192907874322952877112763265441689413035922945165402390774033190692008955389041966766712483030705487737394700914438542246938598204050835841297318852414359468201935736674712331092358032378659943247582501892682687607641133267609372701651797551166183464315469900353395583280624351090790641510843554724521280168391308229109850353577727)
    (x := 77271298961839737506876024291737315803681968756528062251212190075576954828890189999381937401366381076193402670355444281856825531297552941084934366698049824031987727638949372597982272056275382831353380527746216354603316729593525400402426652115562072930007015780022142990691756513107562650912509793478628643698020399225248118047773603623851354889235290562522213250498677772100769578357598665989083484337516286031596649958931380780813063506438305857472419883937865258580936)
    (y := 2851263266231584699910536117402679641836901694826831740595711784929685326316292218292439084668278737116785460771800318856123044856416870733668550233370362627946554000111103885029353537878480739129312491675232432431908684722184973531896356965645159523973804247194634907280501850155811592477604970506446817371845425135221288489352281883925071139493997481964053061584001959265086663426560755459603427642134560463229060836600374139463095029177259348007448282873868016434193)
    (by decide +kernel) e256_32

theorem e256_34 : Nat.Prime 249871020242760435509017138451218779425673549829584202589721091811259027533616444468383885692682100670902548800079710507709097943094734301841157102198044795995115220542915568330028386310138282974422586742580370888998246178145381311837697947338648994833980165757527094981970255872301719680012457454701250274895333453808848040380054991737404711212778840389393463824535693901261060262327736486295205809390285713769515256902252961952273519589023007176215063044975347487664998491343418981043469051545657 :=
  prime_of_ecCheck (a := 123267386737505994995844649391341850458571644026560096471713449957928668789261600761101905306547375186394312034289657581985380698108701138113909722787626444165886316487334793992799004222327481097457114677227151927637448158322247107166951084347892165617549001710859608316070936613204818390659788997489220324476437700308179974514340000726013898281747681725924306121712980867648821191744473777836405406172507984201861292551795729244228240525589827991566151860861747974483848193258308528139806356711056)
    (x := 95932463008935738268741680493349189890365750482149200019262970513481012742274386062048630458554886521454859204406503916759242447137683319417310062700326770436679989362337146022057812170847449812203826509089148228975842454733022743870071428617568202634453381974572034443764703084327681758750046230174786011654448915601914260504076668177422380922088457219508525752503578776616850657840992577277132316715713728044174504472074312800925323683006737688750930760875103860383151309058317428470014376236070)
    (y := 75238423158708554489716207817630950802331668962773575347874970995196024931726364631419375675981779959520640706805517192475966737804379801374134877340273435180168663696087183107475409814564080683034481700870970628902964557759766788190446298179028867541157440613889663758467732782991721385872519137071345753772148133359853151168835613883101297724384226623684471447131269966383541202866728988441831390742239791647371755217115331020876905979409377320504557277209804740100134046731884209423525357662405)
    (by decide +kernel) e256_33

theorem e256_35 : Nat.Prime 1621987886133471543682713770607479842031827809615761343950283895826604385396249018794335885440366737206543070604308288860938636563832758613750683073311432349206833308521294716445964478970045380645159313766082935119350886585265588126584143959539284309649833784496189362867105908121459041590751885175978700342380401526289469595271088757799753830621872836230758084510665787769296951931579125283002752708927780674445218077951464843775821970109896477990854033751564820032614383745457782168331581903858851531768187 :=
  prime_of_ecCheck (a := 1292967915719208287812210290291664962304248266395508030141574706937527001567361649496795735798854159482720362351121802399475133114933782470584489074460271136384475847013751553875069279398317051723939981333314454959353500676761724359967481514277523032981429836120653950309393525142959483027112474871939895848072885306760297967327105524192549429324662346481631854431274640469246778097386356187267445378933923915650572753791355522201185145706912868040044398841674759062280103410465749294728600323259337946058146)
    (x := 312748413066314086351291454573923863967649327396656515130642280506115767770374984748147154913293025213238478132788080099698130065699046424147006138606405217166479139576835273557359569006462567983251294371521728394706828871907073442054106804959804646018742682208071178608813838014088631820072986518790974469054918514680556047821073993318116719036611460406576418860954768020170945514151776030339591676392437293548936994455979695295196788603450093090384492474777385443805539304645693740427232722166629413960099)
    (y := 250208702923146716196595080500979113458199521698628831585679783683442583775844319418203446436443198984911090774494034835426657457523126563175706091260359930320820630682537842444061803585441733619944766361256145917700327487772664857478658967954571377105161271095746167872841863025934810673282176261310861118745349204841060287235137200044265073457811388784577569506786232424024743789919268065060358459612254201016054939173797075478898125748362252464908376765088628324030486975685187951693161566160622799003350)
    (by decide +kernel) e256_34

theorem e256_36 : Nat.Prime 25727926434188313888691982713390268244873275824946537196421772547652515616232510841143229573450304855301544402719561157280120546893691429814072149889739887203013012148432138196013828078417448666522858970496822066540960421190658371427410147130181260619704993585995636943074614352700015548668691383387373209986024860590954978968464134670725348241034438496261738659734173382176123227774895137414148302961437750842364491574160256998988619236728011523643785088638695783391819090677805913624289433583021489396473137964517 :=
  prime_of_ecCheck (a := 0)
    (x := 13125340920095634015447812830090731071991651860299631412746944757494965322592842843790240746596944260376330233685014568824351094750449277368656541538887642894411169497761519908622744714899500548256561361650608744946886061171990491899450491022592895369715995747750211168834209077595887029495886665173749274865415113500079888251133387632830666800127399698891095385219442904675616378593473442706445883941153452954353695284178084970527727615430655467179082761658571989638955602888560343092159767499825339531341429346481)
    (y := 13878323321706965622143220238943457807063483977299888887323318359636966632526131798268542046359868290994162726301242428852721332247244061797135142188030125901345153786179899621055203079889425594901847462928974533981465422812841564832878891305697396116939343407036442894145997908843214250953578914408226715595116620232177902922500770365096068225707808772300984800343769854020327312872374477724675864736400617043563890768058020458798473860743842196072369778265961702287218369715651629043581893461889307615283127542064)
    (by decide +kernel) e256_35

theorem e256_37 : Nat.Prime 79887652104094349675207916663416216007481547771917688666610342951704437754429141705052723069682455548795471126461368945066423078520032330279695969933618327898889870850667463490085578899516172928041718665935217772005022202225489097210758223709762459325249117414136576875450623981577405177799320502569555689189686524000767633753399051919578713874906914529703931562783889902277553463257826838877330055410792081507097380641718907645076064746075492934358652506218403279263284801784046449212266764580942071051189168482253814406796111 :=
  prime_of_ecCheck (a := 56828274459223715849401268084915559650764616372185386946811968701576599571526642148644007497540687395074074004344177150687514387085456993396975896871314658511355247938607809401246445957340738640252991447135767502911720749016114765417180753547459368295579010449936821648643708348096907588466881513015685141258446328273955684844909305854886252821043313553973681379224357784392610271852313543875921245443645894094017034226421168385500446466705279932454750668069942606344157906296177135679176000803316420198176660136851046317137281)
    (x := 27225385968231017826725386432345218330935915499401640411768576394646462917937915958039981977731896044574389665118097853518805114682262573612294926832213739561899581310696524040759754776911681678885482660352772044607984227406875839731077294743835868533450303467755546595317168329500410243374059687243931221719167776680416595704982232415195573946516400843380437326342921762397370673051745505192138615516192039873135779059537679205460515557289107129871527769284298820035627773445265030070205932278794042371808081520710936592596011)
    (y := 72569490970642611156553256999733536566077098681901372405281299851753421484434423346164287816770292858607055884232648580847619048249187044449566076658449120919607218644394335389415525649778958777705211998724298376538648354284402081247033461884316194688490273529371796941731707726912869444128483878519709109664931450603084980127731477365340507517848945730509194840763201083156633448090103453036294591933202560566900214683775452766204388843804000502541948130957992921504701974566744719631405141391222617890893919520122428181498942)
    (by decide +kernel) e256_36

theorem e256_38 : Nat.Prime 48151670711081953510777413444565654040030104894075503360995287249875115486143758360347843371972700937383075089052365074279053653942907669912001728739453449130675756778003711516787853788027532949840400217731184009275774668339220599384305311312253374575904138888858312879323266091352671334874793633350356696505628275603012946429653641659923589331311374821219862321961276031514512507008384631678407295160772691226916437239860126605139893003761326761015430215801761854248329915322598673124856369640525824839603555182591904939503805780685510665641007 :=
  prime_of_ecCheck (a := 24498107618111248367722469748867521086530265689960638360335543689414284237901746215311664714278925297760366109854328425966605180137757008287187618970230394567147977110429689234929730572556517786979711499806406622954461652342932161943557045846157372737836945908588413583489151714117660333529490775694027421044988475528271629214273870359199492546863263929924952605040747935919132273253304855784458242514366715213688620326573070840331041774269322759338562764546273294168089622147653322897423107480901674082623503785433757128483546293272574582214649)
    (x := 17793681281590249992781178000269415675552576859216129295387481365556396862168577225927130776990844686282422827569895809751434896675039813250786384536822775596166995345534932619082261078912179271870068354381018864335681386813303424469665324668439328086613660240636221880152783003001641707526593960212695178474360552196376950831685519984495455130460739756016685397535354683466351756615354772659694033972523428301714660525211118659724790595687976456723081578092558356522372701915815507970316947441917468543396720576111119823829238476004903830926354)
    (y := 40545444783947537842258468849655848366387975652937840919613304273082716882547211660256748245928368130116013713088255830274512581975720246030816787882166629441118290056647529883612774500309783234145067535591521466916180883256843553967796872734327404812917169891457101023310525310697300585744249416879407727264202581652375813434876296638347418883487173744536489470158121460587811377185142422406675144108883347449189054260768578585011899472038459050184873872523523713312242290075522739097141559254097873146382079999452880783966294132909700497300159)
    (by decide +kernel) e256_37

theorem e256_39 : Nat.Prime 299701633426884638275692484347861705294345151644124772489906126715813335183434807091566387100394389799480126855023663902267498990473313615244652853638635864834344498205826139668753743948411787084771415703858508944409664923986562416820823322689717700652729442847304519479073198773056499486566844390177235585498183760294005341261222740471541090408515565038535302951373107946829684281332186960283154609816239665382843360187327116221576197451249356359138869509901531402412922698419237616016874366563567037706063632972029950371124374550160318172710564272715872990144518021 :=
  prime_of_ecCheck (a := 200090424680954250298323597512757095744010609532841774727793930033548716068718336659158179659021657545672032074785520198704733681274408491755420155936989828275829029135625163160979728991999417995980908406244975949038084089403961516170121575477430632469751580123535154836339790793469964052223660083160099593605075939856783178648226192281111677335276664481351899058220612437208286963133681724559087229836607214052973313613345263469285832261522688234076922643515458873999756806109849594445714156623231548324359056568603148399487457121345535366621623577042373563835530042)
    (x := 57471866602654026158763422400551564955051857368967294736842760567592930852790462216989870961148424407013658708126018892420368265194374033961018188176433425921976723859814282638938741347974498234747008085875309534321288643235757448766859479764819499444111287861175942960172737129626652144814779705123484463646961195553384623801938635563983461208754823027895949307435804063789917485895512930302165983161225153657689916097861146265968623210610635867952600145545613612501874221944850349501835470245437072325790398746111818574247487031897548489758212025969133312279086592)
    (y := 207785196733826494075473617594839589355847037511298901103968575130009650391157210140944707106469642112582795559985706862834948595442504166812427304558486638251761471978987470454730048411793330512169082716626133674134681936445868637458881434559348500223556386922363873737018450632773683864575993901783453932376604219359888549617462464943697371410531447422283884163127889000571532829606987617524435398767108562831066255896749836729824224230687590653481434494866089465973106488406488442361358946204229486776320366858209071224742669987843865594006368350300566939860607543)
    (by decide +kernel) e256_38

theorem e256_40 : Nat.Prime 157725310036536962246486580005102939913362900323899789465479032972017552278182701439328374228430675649580709698295268001569631646154575362849240393976710008583941633937009813481161851498108492896404510531016860560327538173194616191149740655991261652056424459904275936902501192537193507721121277163288273285999622551146438668006969515238757300550822451910035473556074431080755765445653110100489942002605392659520343653297505004240962978030438911441262128175954153568527542070253862987501551322415948998189227852936500019943518464920429896142881470698710004609561561532326299999538387 :=
  prime_of_ecCheck (a := 5716001951415232480690278575273539690682096567131491541635017186863764953036495083766077922381939381656148434281755325266046208717793926043328204651640844033110513081647854793123881004826096776844075906457845205753178754023919919219094345897617102688094241171947487118311314351355998395100963463414083091946570794092772521080981965215337493001791679994988834419486037739770260400263556073596228090242755126348143398419627874627933163838040063143424237708450884881473593714253507247623585266167919094259538182561698986323173749003393396431689722177632357166178272132663298617701236)
    (x := 151864514183878419992175446378190421864358144685574875824416201973448960097213457125468696193391237553015868902973623150970139257692374175404214626900027739643837156002685151238457560112484050503886112046905029854517325274702127719727484255804566854545795085847233106637124125651298905575083936361038219079434890517948104017645545014128856360281127862485261070462790081568378659936046615485408278660372785052573116804402874465910343644144124831587583310254742464482401324106009181300402142588990009158619488146607895406254013042130627442105229277268048137324592281742042256786143373)
    (y := 81433216532510247786709943703170046424266861696626575973611703928611068028976502352933656915156937375651649079797340487024053287902886626709880045358522230413684262762278566308778003398845754188999419914688530238894128008517979656494945035219622985345322531194383081765609725317774928308500275382920896523893608720835769114928210266819550351862143591060579303699512759425754331989354935693709767808625984361283822793964931193427566247285028159603548330578492251571017235539986073531533615945927835135044998724948604696701168485745651672310136797816064334653963351014987295576874758)
    (by decide +kernel) e256_39

theorem e256_41 : Nat.Prime 306024428492287161257648522676503022045580454509935959972851358562476504734032722492665547570546952889137893653915851480277451276072680091639432589341862199208462751833587256203940859862020998395957326802144617214000856601381493029665243858700906335257915622161374221206089471653209363445449267997029466623372831286499237943459086015793547265620722650829063923099682204159851323574079232141228165245275346188312523420611936675872463077724171063087715476430239118496117669090555303446794258875323516215088824702939618138998331046391124816405611218803177270427157560289900252603186403687909993097 :=
  prime_of_ecCheck (a := 243095901880241898379170897120621621531573207087408796682383603323049385288814051568591657363478687969475167703989881228438341741415890437286614502913420474462083628289744271641684017812069245308092010500630206517473565520016702552139809217631325136391571603840336002680015695680254533210691760951921817406839444495687338307680306630587438702868113492266009944222111722191156585920716597126330623788661005542117129448401163909950255945916819327545429998411221285542865642528167302184519173904880361905915003245989833830450368025725051711231347568609658903909573404790645776872620040770539733163)
    (x := 243844571883745487268280628997322964587233595039022424052921051407645290204325083846932662134028612211988277924160783538768524317072280883590873064062701059924008329698418282619536507240301076184140469563250904639687969204281307671633347471618023856012585178645659460930497811651012898252885472032810750241812202136704687982987202584959017398010148367600270273103517905448939829976955676017709951500112508749945715706972014399392990570199844867476982272870703711852579750581646796022563991189925656578360609179431357344113880023931780749485298356045023793109928058725168897213999268943745679612)
    (y := 295404576538883890776870944027661574498125408851239872793904673088196016164740381550684390553309579644263981354693761500133506382639046712944996281323681260920693575565915392738026835168332072069924761592091735711456910968684348933994878327261983164828368506573925168526522066914794824026724293851632429418718965441379227934097566517332234324154209455694411049229362855471408560398580853773392711623512295010509560471931869625286457166066648775745141415274953171715669380013100205771374366554660055648241330530390813381798171679824081457468166260744418077672849930478923401836436990168012686452)
    (by decide +kernel) e256_40

theorem prime_size_256 : Nat.Prime (2 ^ 2048 + 981) :=
  prime_of_ecCheck (a := 11846143980823215041118058520933685494439115449574486713757151400560540141900367387327876041629488327652408278232496524543851776744094213941317963087083391667176257267995208813295261621988707338820902631758017808376925573858566849480336864286329288869194895113091256873009520093286244745604128896956804008515802508344669792028057677900094913034356930574210685486647778607169484288192127247524583194587714921688268125580946469560465895783373973924982943369658828696426482081526217536356996924397227738598513033074461027127362211612205179475585410332979070124471247847602782020265580717839990260302249360808524223077176)
    (x := 5774499159270984422449790946090736566774348404505765057430767033515166557151147930137922309336458110145049063092639865867917248236872426229584151563894851506267421355838116465522319321375013057906665037166567880761476951412144490735980356182479655458868180738840132510334910474847643706165615733215706476274719045248456845662901027500659021348216280624084032580222302548833623305680529951744883368217980364686458122907789194908700109727638607489351638653667377014388640539609448691666558785666444326547046173622740654761913179507574727553028349850061218114415278850378071002727671039421534305807029808917242920868706)
    (y := 19908977803784208590822161062164314068862200939689367351973754135195609732481113723631150995217575547730181362796772630833692133521479411088829139043570584775833418368616342481016760714081223337916913447061324582213614827318546736909583322354594920318276338419918591448399610687064225019649483365937856118265318907213768995219614412791702783862083498407281955644687447513975941982230797947255353295918166810559890881057778903113329049091955987888142114159186401657109516742668311437974274782680536750242014635425612681852216929832608729903207408308864893952764849291492477686208920676880992199360041498752472620546757)
    (by decide +kernel) e256_41

end Aiootp.Primes
