import Verif.Lemmas.Ecpp
import Verif.Lemmas.Pocklington

/-
Generated: certificates for the prime that the permutations of 448 bytes use (aiootp/_constants/datasets.py:45-369) and for the primes that it rests on.
The arguments of `prime_of_ecCheck` are the coefficient of a curve, and the coordinates of a point and its order; those of `prime_of_check` are rows of a prime factor of the predecessor, its exponent and a base.
-/

-- one after the other, to save memory
set_option Elab.async false

namespace Aiootp.Primes

theorem e448_p1187 : Nat.Prime 1187 := prime_of_small (by decide +kernel)

theorem e448_p499 : Nat.Prime 499 := prime_of_small (by decide +kernel)

theorem e448_p732098869 : Nat.Prime 732098869 :=
  prime_of_check (rows := [(1187, 1, 2), (499, 1, 2)]) (by decide +kernel)
    (List.forall_mem_cons.2 ⟨e448_p1187, List.forall_mem_cons.2 ⟨e448_p499, List.forall_mem_nil _⟩⟩)

theorem e448_p103958039399 : Nat.Prime 103958039399 :=
  prime_of_check (rows := [(732098869, 1, 2)]) (by decide +kernel)
    (List.forall_mem_cons.2 ⟨e448_p732098869, List.forall_mem_nil _⟩)

theorem e448_1 : Nat.Prime 98932615857155010947 :=
  prime_of_ecCheck (a := 9146434045578370544)
    (x := 76697583143500527446)
    (y := 72810999909859413142)
    (by decide +kernel) e448_p103958039399

theorem e448_2 : Nat.Prime 184471877242982483938001970836782769 :=
  prime_of_ecCheck (a := 46743804640028202093441085895148906)
    (x := 163489244732219259905471334746677758)
    (y := 6456239150192110026726182039250051)
    (by decide +kernel) e448_1

theorem e448_3 : Nat.Prime 84480552670441622064389882670362267378666021627807 :=
  prime_of_ecCheck (a := 28067736471688323145013801995327634201126069804288)
    (x := 762835426024576956988355805154859427876202700840)
    (y := 71169628552380631349141411826739326954853369246996)
    (by decide +kernel) e448_2

theorem e448_4 : Nat.Prime 1810515743362611763930681703945159384681069619116740395302404071736337 :=
  prime_of_ecCheck (a := 1129513492587677332686502925779362949172023529874276809849581435043621)
    (x := 1145700132231576496659591155115070978234018579928149367179847446485313)
    (y := 776086035060386764035135191518539366323811551440787409099034719375856)
    (by decide +kernel) e448_3

theorem e448_5 : Nat.Prime 143681984975029425345171376413351132929056414985364480112321911326670777684605937827012767 :=
  prime_of_ecCheck (a := 89590318867746880841710961416305547863294921404213401896233940073358566769641724978534668)
    (x := 98789312690185990557361246194396875184035749514419092389381656854236586788134441308166095)
    (y := 72666237604314536513130130340270379080162395071512737423659382195985636358706933933452605)
    (by decide +kernel) e448_4

theorem e448_6 : Nat.Prime 1979410681306039650962146946664671580026900701371178975991460743040865488975028157041377507195984678872201 :=
  prime_of_ecCheck (a := 1832160826381287426442342264873226853308741731851140784292491700549191855413085274198405553132865686531478)
    (x := 539141209093256694623073193431713162365450621987231534586383078854743952076189183440434647763038626098845)
    (y := 1454630223255412868706138856721884715407356752986176569697857871162324654977686663800365096796812668352903)
    (by decide +kernel) e448_5

theorem e448_7 : Nat.Prime 44045601059902850852915543494795925847989389948783359903860069722844695038070728208938617902643027977126638006543691631 :=
  prime_of_ecCheck (a := 14039930016327187499275568172704002862582554469858523923465186607620944965021801343055963874668276667915988859171904392)
    (x := 8044906380738021435511783388046788110303352092594644633068725709464316683239661698061186467283048422116415864169408522)
    (y := 24717717436540664719206491588612977789563105368680742551191944014302058678436918107584643936239295741741147331400743732)
    (by decide +kernel) e448_6

theorem e448_8 : Nat.Prime 285980938263047573802273003111008328529234487439055258202043635116710607873648398688883953069665628101933707561770826578290995971777750431311 :=
  prime_of_ecCheck (a := 27647699814301454726513976729716511329417290534533534411759070710805008748375562739309538814904487027852617447593124007878585326275743970863)
    (x := 272010326071454926838280672101162785720742790410063610059002509399513685794098682572121900428069100053988015020271905763765148884625956299337)
    (y := 48052631148573676853854846337038853732665692733615463134965633595047021957804105034647495855170356870962031820091900570695346355755030693687)
    (by decide +kernel) e448_7

theorem e448_9 : Nat.Prime 13289769758387252321453382113575325916796047857349598465159831871459260863250822271145689331299552434732620720128792634981756883091970075917863367152665497 :=
  prime_of_ecCheck (a := 1413235662039820021142931537812089938944032733742996496868482820305480357781467634090105500172487099964008979738522220984703591064218337023019170297149194)
    (x := 7796102337506648463430895669584900851635828941357602368301967735239994442306260037069953562086136249278031698608424502808034105349971384116747972635478003)
    (y := 11859042150166519956274304807450739020908241935691915494913863852412247164312504224963078396137677732319519457258614049011750481017472301000485361838908224)
    (by decide +kernel) e448_8

theorem e448_10 : Nat.Prime 7287780308686798269874490564648877427592127104536231816446897416395828925248472676956639309717258490139332013438365049390576708330299423254016092968249620010455731 :=
  prime_of_ecCheck (a := 6344968883682897514431282583730486106646301275252163500119332562137818416501751281663120590776441926807317355114081259885714198164068892948934617987912083304749699)
    (x := 3076551478913147766246351851133676412729653218013021549403906282691960830700211043033515987917156720064162275769116197242443641666563052149983088910896747332205240)
    (y := 6532739059338399209241548091399099797451864003228894548651440076590978315465601697683119519283212315016423791897390780748926982307906237279979132187824391355525690)
    (by decide +kernel) e448_9

theorem e448_11 : Nat.Prime 18805537265640832322966899400325375671825651293291257244127830198233293370294294735962762641836543177801985217464954851598836177830533980494482006436350556628822709780193390541812238642467461 :=
  prime_of_ecCheck (a := 7206906849087612306349401330979205871489172345732830994825767516948349985507781771437432361700579951233584872449136677087013761772515182345353457714324167745022292582039185931756174463524657)
    (x := 116986600948253106734353759722317503768003656973225478568697083082418214896646884694108988105614034699884031582249897316926331495517305894737177614474364428325349933105371256802794530392177)
    (y := 6519570494165949581943591936023183572063154803884118783890136068902810296009720285700270642936079935231100721943086697614389015010568477191118530017464816436458262023403816990922977594544601)
    (by decide +kernel) e448_10

theorem e448_12 : Nat.Prime 55350972341459519814117024304768327010040642451932678289766857579576945189963856498306844384502502395769844057533432893211028872373037539009221201054190047238677844457977111707294816859591331531907885516623 :=
  prime_of_ecCheck (a := 8875155534935791558219463578027230638279280809240904063633878689473021531314155626793537210112810784062604434549286235134559786434986629265441621745546118576853995229826513057750403928297562031572895644417)
    (x := 17358304907323446295004487810785566507166658855584759572732222386247547688106211833773363154616211025097909453064873035665728962095275682648369770583281341795019638359077404125495405095507235844836369288738)
    (y := 5130833918224587628208928491344219668747454708660500798923397776157360095308506543737138337126800635916145805464819993270357982555221587139156946627644753858235920185472151741069977600680347908674868555819)
    (by decide +kernel) e448_11

theorem e448_13 : Nat.Prime 193151497696988963470145494033979775921608787417265827444393895025560100832125538860759278229369608797838297681081502105845707314384219434230276610493704833360490990057129783941549786743372876323355178631682746871095533685587029 :=
  prime_of_ecCheck (a := 62682544418829797278805396883461744833753309048613556002762579222894761975547703396943979713790314057082789985322060641015814182227105562920811387372431989701849009681191371287039620571948660900169602302876690342200305035907459)
    (x := 120627739528678769993306886346509663516312491736207987460680407925685667129361376420245212562006389472360142320109014395090496530032524008063421715098051624013264038274269321976723496149435371045125207386883229458880237460229432)
    (y := 26815766753653594657725182014504118422467094774181408741128820544798745331273641640540653991203296443985363870990339495776103780843667705102202729294493957441061587682395548993202682041288180800871478620352898959045969003992708)
    (by decide +kernel) e448_12

theorem e448_14 : Nat.Prime 119314725658002215953698639746928034415019941706545807023482517612696409259222183273570022801443450443711868002287708778845029642866929536998226169503314476631940732990319490950692365211984991669641479213847766265257028384927853427611836173300363921 :=
  prime_of_ecCheck (a := 55217867995093855630902460993678622832223641061782686019541073782870950204672651602215421093152182282556142409395464467501706538359476103626743692580120505950053795234581714136465683208370625273926068565230662037503475739300148109884414017486619663)
    (x := 51440712073948663151476483423546778400819647648009727532159881099615451199756741647403370037077613495073272468358421265820706970679661929338083723993348169658849736997469119987811095440679878617786173292908986493493887083855788100223082790376797331)
    (y := 15858467711209560281481280816297311939227627037976534531612933702703171542366829934272929219384773323624061200761929676007214312160442415482734526279130995154930296031296207227209250436998049857386252730138210097500342984708813643283101929978171044)
    (by decide +kernel) e448_13

theorem e448_15 : Nat.Prime 13201967100516928218980194661357388227546944271000656706231885850660114263931696247924108571775013353867879233852723530840254488778324156822375419389226726372805858164092023115616010680560985045398014868929136262431179608466011770796150971195723068642201274788799220063 :=
  prime_of_ecCheck (a := 557248577681583116075879331532726547041150773533796530158468888494752979834435792733101875415068498185545870649678593127664596014403973261411446673041073876510792739193282227678806820931336387972383760914755810229379737915559256977214592831373264912834625288973474509)
    (x := 3727781236893545729145646985832988440713304023931033895655620166505640589143331589923371802535704538555837946907101822175519212787359383916338839974776100427861774961264931156992660585026263099524507945127238019902220893157403138690295787785057408532493206337039612511)
    (y := 6275167248731491912121892392803855568280879887094123408491479106102512264100341192406749437362553786889682711596680008739854808416000760430297073463399187323029907929065381564386955158457935409086638670362983887759049353234935381123280775777641273711944861058475073174)
    (by decide +kernel) e448_14

theorem e448_16 : Nat.Prime 2983548996469103161477162488976427852973673486569387298114549192001426046121013606317611589474648452958972858505014412135421173712072262479878429403708430098589057019418650232000317739128188037338351311020940894843780113850491992679239083645050469026144689948258341763560305046943 :=
  prime_of_ecCheck (a := 184502456495000013238859849519244444032929872921256039605339353003463263615693889822222033829076853804123575378044421013244464651442573730664649605643720631923543744005339839102221468085104778298058246022029672431925215851261948441052495152963299725944511314872769972322264557346)
    (x := 569121150551219415500058681716856188528007976904511409007381813332302262288009690860262626871535465170845851032634726058734229467451900126339640115192439688454761613465852232390445778444829973784126067990563452405573667508953549039179518892985620488822384076498519206327631618299)
    (y := 328296665206446060243761434006025477316704825580542383614632605425468194682339060932959680635817739419413793570531807527653273513112763731613813995265346535954156596948339473172936911731472280396393895996996750886123869538164466957348147592900798863730809672964206000599373793790)
    (by decide +kernel) e448_15

theorem e448_17 : Nat.Prime 79492086667439078635452834319798741247833395703800888724430464536568902883540730408523588076156988034290424617716335368447113548572076608327905643842958869003887828379914781505883210135674849719348499484797515524294767118378973263614587523244702619607984189794798738957424921721950964556789 :=
  prime_of_ecCheck (a := 71977197942839167243621717306309528564001590022552742891162136885773926842084687401221714455503791292421847442439903480864302178690077309168270594671682274814157267400343334726238728983059235258563131821975787771297447520379812378981639345643832580231602085190415331784901991743046793614537)
    (x := 38224108853040457730704654055814390409515851638609393942735217237580141544351292854795168897724486888626030181305425153197713931789814263096865281287119288227651787116168752438733973426489995858651399281621543514432679438715464153363652596996407790656328647023631450314724293618557728619454)
    (y := 58791331235623584396942001990440706292005582577480408100937178223630495823033401738904964648383868838359688618101557475548702539681696864065550303211995538509957609050651070059199661404311953844903966702845736139855491766919092955156204960272036030086230615063212362783452418561377891603707)
    (by decide +kernel) e448_16

theorem e448_18 : Nat.Prime 234755311349618637952312371423193503964549866660200140885436500146681063511026703837895356596452692966170328321960244516842807364450222740170340882923646392251162425975520366632083734005897259294609966415147542877107857102100596892143130271484018816757444563739751693997532827817711824721387675412447410429087 :=
  prime_of_ecCheck (a := 76961867995847173532346279445662703014115839513380606678900086509184675836803687524518375839209703693379871222030394733259342375738687345848797544112516411377281854470973089602137048547559238287887194807773430615673050841872240980902387041379857408832904442725305696660859193268492110449752077383614866747434)
    (x := 104081108905570195493059634014698407089105051465056043829258831919229343497440928008134019804075677361097792580162701460156805892356628423106680512237370052182751800691802250683998171778634719058612802774889686195381643461159249411657421851922090437310818073820331337577568720097241245049455210848896347030133)
    (y := 99791944789237537631944788980979349832941333397227817682085030634455468711910133156759221624645812015936443630095554274480828331772869520572546884291077262408240487059050455233544763477466403556015265143709666673381925842242492806408619740606336726138291525976106582048463201545524592795444690314497113632526)
    (by decide +kernel) e448_17

theorem e448_19 : Nat.Prime 224661220116053674018477133560369824110606671162054283096211676507197399183968919878418371754583104976266548231796526997980499668150440888454705527301217920052268215481868945263465763593092275385496183777764834260131945612915457797984314846944006436945170946256760021700342548961733232976308429108285122274787251170770947 :=
  prime_of_ecCheck (a := 13228725227338598352362012806611873814700834738967217265424568542546642830266962011502114370234155998284626892495260918598849055817810975315229321090159038437736940493156838047934131352087034741891419933525562055008113770395227722961706428768826029694551097466157539213639448204898257572982628421328281327296843068382401)
    (x := 104209819331421338686894677190618223288520492633642733305733201175105364420858550541224882720020522785840235508953555122015671244665060919767852707635719266406755491186829760711157978174076471824843889553479766732628188816937811836217011438201460507372129228031736688914893197241688868701491456274736962435040823019426264)
    (y := 38669625021673466188721026908561536305553325541500506460908240115290456218871763421270959592015861747044049066371151975143520008340740276786662864220528489561276392516894777972332833354761606594432938722447734275695499703646410633522128732794596603238883879973037310461418409867216130791710631799730906009301863176238428)
    (by decide +kernel) e448_18

theorem e448_20 : Nat.Prime 18017734596950175449524082277237030296865232129968180793300143662126392362857053371427124965327941075860067231173631183510588929653806063467130678494414101471793808791536124520002963847236623150089262184917051291184412398984164754644207045540325748306226443686328988216230661983051675369627452262741180831876767666352915804908863 :=
  prime_of_ecCheck (a := 8759036631195370371700453597232525269397148498166716842693417283916453521958242352484568524454454681768148673498841288531433047115527603667218406185253892968651081309543040339858506932105227991709418971595141695658443168123277992927990619969866425462905223978010804245047200217979492684033733613698811762033281715442753068082297)
    (x := 1227789869032538947937892051712395343574074260020029418074493596827652770064891162646622378296377376166844336502437681698698112477173144320076597364272479290067888960928283676107271336134533369137471043483697792665904027695639813650841952381035824932745556465128742138795843796300380646131134214382040096054791807712289075642422)
    (y := 17527823593454906594301696150374743250138479815602624040284947090384071549986341281963378566317711095244615922708013983320878505454419785472349791159618495200372370607383080755151498898255911201375388544279940433503089775814657842536964172701975240117477791917409104672198769337571844170812483841739592963235886893482786101388576)
    (by decide +kernel) e448_19

theorem e448_21 : Nat.Prime 372675329950488353795600053015042749805649996317124564260740042243788369023353152882838328917274294218234775014593027921263769585249317504642285968682975335772149504996605486300656077957286957197527485860939898822483164710070657178290776616815589042732622930695098467431992236878528173634917947878616958683950528189232747588270391157561093439 :=
  prime_of_ecCheck (a := 18564010140779679467926443098872517267242696774794953311320560232079160095007432410012227139122741769832596509675665170347887016277715179411302649478506537209642516690231267727056803032329888564959878575704299444173404061732902606121728410876359306039908164565063467180074307016610643981285323705180694729081309533436863672585470526798396329)
    (x := 190857749734021694405995137411435921662383870715416623399491999417405837390647793154527816812849051859191870986873923753073641935122530093736168637676536990698317067080380604528657102885613313618231312864840578996465718927047567522487233393387168394914190641433769449155857881563370069158234275454530339011394677022253211056791767636158989900)
    (y := 78508914205893971919955067491404095621491116015290029031719705633421562317917224634562564467648947922617154644475099465786395324864324525260249799809749038899783286239663574831678613282555176582603983135868990919898229609724973761894277613291012054373429735001896267326086980345849019270644719161252529100611404433790730067514045409516514485)
    (by decide +kernel) e448_20

theorem e448_22 : Nat.Prime 1221675769500505757861338998488570730890986603198395083723652872824392194018812200093731335886286336546755125069190562702967016737966005490482810077889107301759377420059346566641352528881205606865361451892970297202115885254268191859343658798372463293720991193591685491165333677396201268677035923020395872664404312326328609509437258387456148580523424975576358461 :=
  prime_of_ecCheck (a := 911066829554699378495143047823415597873900207750306538139449053206950281997914255324181756273812705141337167597645175783376064350338984490758796883630688299937775456283360579986160796944706424227532138048853970305993602783091879452724128643822165502996785085924143560158841138465613840632521569782511401295759004681858924472672290257344051261855463491142533626)
    (x := 363955344725717978910469185255830116374274914737051232596404270412040644438257929209789999414354451077738087282264879397190633888225132537419130576900099068213964287054045133082660353441953004852674141571091724822067297271985927020620746641593657637104271505375100699161288600401354069457542110024151456875747450993399934941682975525514174710145307422857940603)
    (y := 748689025643059154043862771277064417954159467404616141154734452004086357204345637918747065501877831312106502912063212130112848489041485609853458190915918649223071160866892371428091548727659895825930129418978030503231587219171118212146260654877152558209524773376595666059080159969555691846020216589406457105143062740989891593485350061600488662113682745919427409)
    (by decide +kernel) e448_21

theorem e448_23 : Nat.Prime 22699810145086036139865165079403135292514755997460165487578890030110872917885843477150144714371604167979751973274307820172159877511030195824111343222380848826239155989683393346243114413005754347144594685112520287876404349673765242953577816557475211821246878983963621300187530731733095060722374166736086063140338956022588819886672965573375756597540535420223723543926762853117 :=
  prime_of_ecCheck (a := 12815982981728270328274731078008601243799861888198924154229265958915104206332133139822290967309570997995019881349964223577946668174764680439680297791021731882042272210888259047982119472199137297662254812087786020725107499883644249241882607764279839710900598476801220997257787927708727077556744051954813238665704486641023444419016839697802564324771947604536396146057136059408)
    (x := 12675998930323864812671468594593477669325513085377415817104566212752964339226781233918622763637636787097734006687574932200418768964905486541579466777154386467609762601236237680665430408634037571063202294683829023764944968117598396078757932304241942516764089809562932679379041621569494588242656014247441436437328318894119735719490588862324757733325741627499560018545305125182)
    (y := 19138105618899192872270172298704642427666186245593599200957181898607610934623007958689006862252934095535916833544704553885344689035645024274544045018972824742776759285893028337266551008359014762457743025006082151968234960827878761334470662417487433191349012276140031816983001203338258421021000664685740191201034323336286503510376535808295086784281275782153255642504229993403)
    (by decide +kernel) e448_22

theorem e448_24 : Nat.Prime 38139412735809568176318583454367519175102316135988802881947154569450116546933463148765414033044311879410252731622553494832739259063858345961791026630207970258595708805445116180703925490319088417710437833797003204366494338154946810335964074055623377436753689068283384481737467340669137131790995647815611555778896529518901380302375316595983965035893486646110190732366950462796213580802849018769407 :=
  prime_of_ecCheck (a := 23734883360933519531672685087376057467060360732872908597029174673656122633581310856627239247384047022602473194043449613422020767142401189841484559279376392911078259401764789077550123668072217441533960180490479982466668909543264386011419498662422234373558313259455004186557455145622263192261178777566180545273187677828956325888138850263954826175230537353268535666850131033645245278314661492897344)
    (x := 16050078290640243178819777329469694659227864836788664629852505252952217441291355950774758736798587821683504466475730979985602832528768370535663432678709992083364898460818417469661976007072076523334517355594114423106877760999660261736429209606772523882722058198956725194793954878703878058084374635044407274323674745374477644934993680142102333488906880994651055832160678840906499763869326611984390)
    (y := 34854646857329152670630897055627736612806720736393492658157674511006200523347375549501045900397268856306979727621421012990957841513665273286490693454857406952556594303441416289562897351940104464550022455201646578769799610304906783773844616575954148683988877442338193688728261602687002914350784192010447959609056382043151034927001652564969285914704516181873208263482270090494182219237629820036946)
    (by decide +kernel) e448_23

theorem e448_25 : Nat.Prime 9253418681017541360532542942576236579938632248323649304233090515450864119497295019172174331468943077406356225192983155085185678519912589111474728129174692552680501475156279717803631317045274336136250582009294178553663045376366420577301449016011246654807850485223121149872626245496461604783630402532046412990792009315004079724037119878669574434656254250554588771415358251361916359090149314262856527026498495834998769 :=
  prime_of_ecCheck (a := 1089127475773003652734109675373803612138418723129739754271748782745162106234744494256179521845458020809640746297108282454698163304881412103192815154281658266153142901457647630373137714008901223813771657319047808587320325201105075697319051146509941463129513033654284737128160745611624498543262418243746405697812957596347761780848166603995896546409056592515606334591281200571152680177545817079133567391705211130182871)
    (x := 81210439319526095078603153985209615142066469544088096035557406015495286599335044892678597729423196235857293048118023641266823204554829546251726298102804585185401728798953769450851541888801783835446954257068333082891622711468495882632152908835388013782436360613679985725789806984450404931602813146363864958702473718159159140450888131992081125337077867280747835970758655800259141083789239587857627238952482950424618)
    (y := 8744154163994104845938865074133147566884754892852151405700593709731597465729313344593904400511109736882711217065636614763686365733573534611288601146213293998210527660201257994058400567889508511852628817220184691455109492095407730646621969589546691141118715502713186996079679557623538835658397808449455213354010963280265459008617541462491318396032090098177602347953136549583443644257018366363210187055341797230285698)
    (by decide +kernel) e448_24

theorem e448_26 : Nat.Prime 115507243818467330177690541570491104653924601706343950097392234815578953306439530204632630770456230395605569528379745944853039062859065489651056673368191786159297263934613580421656035426964929170405356128475222377572788014885859223426875483921058754421047698322038479080698122885574744168010148862259274832890595696361302079248442234093209932479520876074932650282285228396492104580986279008390826476910493560797395973434564830783 :=
  prime_of_ecCheck (a := 38574509343531288588312448966886690178032224550868910882646249292030735938101362945620220104810352259220075465768492764145368091045788806155084592282214855298197486341015178728144638727637725451946197629679832515579882429421889007637273514189603708183265247483651904924407976658712627669224366482359347099141276810310161061642100091689977389941279649971100554515895020996975247231220738820498494034130673673178778734511221902608)
    (x := 7825093948258191124247602488003514375308020668446809937160694393173987760964375819618801482476465220720020873468882751626534083060932739706607016406423911867930533718274429459631563303359200106058487896450649224989477619924420510425370399042659217973056257761772114853038236452420234416256173330472912792035447386064451587971114419295241988041573332906384366240057337830471346846304390210196833727276088035710728317136086221268)
    (y := 49768402576710728149128885293157650274898015981300843377998464976111936904328123335866081783557065189331433848148154364207443692700264343015618573135279012434679198644870618098089914314589931561555181756549513664984727643308654795639347794004799561805461661516386546778727705482174787571889013887249164028455366786392672748921665514820547891792069375280966179746520958333872351448303770369076164513791692634935991099700667636638)
    (by decide +kernel) e448_25

theorem e448_27 : Nat.Prime 4981721599539796396617492219993380958619577401721626435849575257999089040456665017505506243169056894209654524683483375418833851764958571847157241900058651880154313279258233997839005451765211634975056234478715705687674680420198869753002542068037513003809125074087811339819096796037378399213506110140995496428748066409182125779059714383349474274937702008406144617629348273550436431067990999499503726285324096672598857988921326132023126494429 :=
  prime_of_ecCheck (a := 4184015721499396779407268441194265242920607781640433973748404061364017417470156782313674043222219102314648365111660240308431521713469692635391536661576398135203302001268914663150447100507006986237782886318538331334594986588613797187090155368614409094425392682535158641020011351217809369913264272160320101523561017210219678491953687255760759369347641512041550400332772936668628462675269613852646043139433952124271989125658970448819878875471)
    (x := 1386757995042154541217176281006282292927883996786003862425272145975731378202098288553767407636395004261266523183978536475673769632394410610901307339379405936008425425759507944809085805761035747435985975551982646553779531200771675288214865482332485708591568447913527448070078875095467676612339602011896092007636469628343754330502417333748807821059793461749652455088820183412607601274886324136241113634459695427758950594256289273387914746817)
    (y := 977555731097929891334528689221150792067979456519373546106180953584456932039792978174104866120050793332247281571899424652680029574362671558326282885642711424232195228636183687073253673636888683341667149267338604919147737426674282611850433731274864812638955572881743874862553804638272335543167660773070703891541839338416905144468135423547285694005244172412611049583246926297314769122771403670188067645297436633956263381867937930944428831909)
    (by decide +kernel) e448_26

theorem e448_28 : Nat.Prime 73761437417250034463823186068493295726419290134512115484159688843666581954953171765168790221451971534279241899091398502052052825280459072576326693827656924078095026452708304739113417906098206030269197256029173405429571703280670027366192775064738937222614845158020800117522420017796313087470880716605434835191508719000645829397412955764867391908840513169137531721723337973865319929169564894370612253207522927897771117144024097007546894624648628183 :=
  prime_of_ecCheck (a := 68449425930450457761576160512046094258158147595353766225371015327509867165587658778051516340206327445277228825944870312056861048655210827607918306003206126352133486586323655838255520632005667539677203375841054423642135643706209961222618249811586417621200668331168021972515428082485260213714375577126707452612595443163433644095838389566043736293138348100838708548332268176197010437124041427894467729027467172920839927328970750859369354755138493868)
    (x := 21231443847386027571313159570162071641165303687747446001521989927025975238741070379266586824125937847229382142574532561849865878028474111315891902578664315914187277258919404552242518050421454781109439383882865972307291800192139816478031097463242898651240092460808217192499525231299307721678998408789779582879699972055687314386329839893873584950608564276718273119141233473473875280934117094545039718048492365978218317882871223103745834811931192656)
    (y := 6614897947150505744573508135013265621641043023829731795360897441277534490174629701461882984268531318552393119598613404445607277495645987204684771938812023660893090639276021256610009669407189082121030027921014530823935579985179162024072013397818586227387895598923854601587410026963276437961097131294044350138099361217233785238066940684485792849484909681798247560381261361622045579364689642644844762832034621772885882585712339922582306588912716488)
    (by decide +kernel) e448_27

theorem e448_29 : Nat.Prime 1482288581650769414373356520447961454882521547941176792292355232170148783351232148725700386426147088211695853802152226355572103439672534932813296670045778744895194503610475991714171042396296439712531584292524134707098982663054813819679924946533802029086829953552414824503568386626257970482054964502740641267853254676013063006770249051747493942550046955397597313988910960984779537583264067075453424606890347684512017854132710158943565248760544114610759947916570219 :=
  prime_of_ecCheck (a := 897433629652883461744221414374756358103976021965544107824860853272400365281493217475470528275640539993247963556812496301722324905507513524231719093560596327359381212719749103176929176641943477777823906038132347411472415211378009450367935931378570140304875441237086311205816218270849688354085043775679068967900707642762638889430868275224371140828984977721439696433413188709078080069343163347772664337846765686916689024087342156611103236864432442298643865036984988)
    (x := 745173198919757422192299861173928968105038156122683971300045103873980384199620766426136381891081313260304823162958716474900946334531073828130549385704750339622090729748003217181916085520901845302071305060352993569809327015730643495474854475193437376916966040330286042704977467982044642391474147756662346741757850863547895448321152633668588157171969497892654132270829206492264529421681685626795866818597795296237154915334083117885179856178073083262574493871737994)
    (y := 458366222591108923183336377249002062071186333045196790340478666711374528534288492779062727478240615038083667745755681621407444353647347100852798188458175839683092981110560409289178352016016141460196092232702826501644573648166511596006199403870232392899952682000770161960893936083446217119760798276458729229559765254029131550574825080783100322125917662293041298215492279249909709747809614782406973655577364573057793127318279562609332177360502962286005879169704316)
    (by decide +kernel) e448_28

theorem e448_30 : Nat.Prime 4342165860317884434400455735792625990749641926899467354763078567333802581276570438815629255073488420012121206257489862707177799642207286189964197305266188944183254285319692709595596611595365956935454536250008889294230765570617160675220543063241824981663988305629995828377746339157044899274113977805747548744093740283605338141283328884516138563861745233728093766403094277390995289187670145640168867753152384330863403646888124860072793861235649558994894907072265057918480130198514199 :=
  prime_of_ecCheck (a := 1134250807984264704660735301609958667832156340682779403462055871877158055739888064589150249819320925451084676107143310917304022725620010467865285683176287978650339688288777834566072923117262166573077400232885968666507657594608444650198936462534122867876386388181171746068034676813321877981967212979546568587035971092571377003722889898770640458439959296566399075125232503655738028855671693862214955029606407925592597539389000493599913468743669159871531086929264766178876043208506140)
    (x := 3012596065329108654632541716425563574135870109012070634819762759231307457413399566514981484883267060828231478355304693824906094502851946277817592349889381290070292688792317094220044983552195258979965827213366126746566713274869790663372588348479168428172723359376091391891597037854790752446306426824956107782547814427988744305853531460220490735476361728180688896278730588944775451477714975330095823408097598275586127203694239118474951716185303727372748959178000570586756657170806873)
    (y := 2111798768367925205383567021945998768002486544003106103034136526840847072252201584524236446003864478353635756996574840192666200032531125534983863030419006813100726928394886044802719734740823775543338230448774562108056006839308401788231149707300785419345180893390769356200067198481860412241931914902530767122739051529527879412588458861368060439386707662484925004909762966183746022611685911686328801825302823897942158911416881662412019531524572870619247693478708152317708309387223088)
    (by decide +kernel) e448_29

theorem e448_31 : Nat.Prime 1013563135847989106756369077000039396859653930357992835735673412706499402785563737274117909121237937153811053225209384248602097225714006816063633573122860949458421215076909900507787624489456192293591206138718469969318502861019460025624917612550431559496351367531107771007864913934251960883823317661346461122680491820408707465313801790341582834135726040837628133602024162278369684455909116640715402903484376303665837234916535152899844971168354730569683521161273871892444175424420802582348281 :=
  prime_of_ecCheck (a := 789200222032943565681215863882225009603766519761770519110498830588054254944949291949900335637356819233288564657335525702927438843143667137874307937482820739620084223752169990478255364254530277680008856942578030123955603301868357598016891183174018033331311099097899960648453323691140035947364165827858029281465285974309944810176763987737499612144377170389450676141885842171332151004883611920850201123633562738869274993047794449706262948299708031716297800141697869755751580945788214535173010)
    (x := 181295779884398276973680472133909359039711295682468922512794631183637868863559368638777379895378808742027437815762058134595300348524359782062539538835321996806505266023753612855332468000696411694650148920611810650833969458285507483330992889855626909723426733657772918494918630097646902982019967506464262316597907446437720304741270750065231673996162787779020164554349905853691489377822849834960672433720176124724512299224518697167780827398632064190005818703444337000311751426629918397819679)
    (y := 366986260377932385346567583239160302548517390812844247112705143903425631166348833549012068462989046558225472755065054368089532574370945368752438520106335000368884869884933520718789317105933934171417189016244445548360380675578404840711874541386444562523252124282845015233078645387018165442192139718798630158937540142242836732422562689516310093206057672959645648990919419504049293847865701219746141137970197754981689764359700128578165891926105952951947046594431227367289286871734414412578331)
    (by decide +kernel) e448_30

theorem e448_32 : Nat.Prime 929101476224316362515577333449439496507162083582748358527418598155744789308986715986270854560785160788535661114421958157810790046107033901147868394886452387175337591259568926469573029799597276144166331893770107302258508466623330212689561370328787546599231886293093292286032757527691730101216466086669127465773318744864293223580104364248979919837675955785462565645619839928855537544453936799055432429683364360007821766117474824276642407022271339876879823703304595733660811589678170075651736069467411498931 :=
  prime_of_ecCheck (a := 0)
    (x := 4433180372608427650329482921565261830661374049529861284098768741138447123079092890617105326268634856367584691273202417799438761870972686035628077233413350289104349691483941898046428688755840706951173848085571476314127926781195219754093934015494631265807650232852644957797731170033230049512865178642838435983943358524980774826571723279776572262530340831488171029010517815320131679462216762861467253966947666737505787033324901403064321045466151314552006167061701006107320381667024223083411189368708001674)
    (y := 201042479958769399083628426688072015616868063141408823286043419022134200475307111887759831533129541298814691656157277309006857399185673103327520497312587442716974106799118880942950417989182898384331429944441322445084753731956561984934034864894600533776981823075542668605815460495786957911948503004738420231801215416067741376804624078805803913344983764028551445951260005956121975119373160931161295378601034890222982844708030586295044404346336868305800330947835897191001057727699622410468574495356748447653)
    (by decide +kernel) e448_31

theorem e448_33 : Nat.Prime 371342093412952577766863741271971829928624494934696295932081542852175428816409441687329852655515048062881927651244247348517165356870750523142556076536013809879445279919195652580977699844690044842773315719228871929679870284341717674661742709302262637420659074439263253865114101644765073564393420846877313676421952841028181316495329720141699796296374569365561995067743173350200631795772473750227323661754705742453408377029172901330581177110919027181802184003358933872383498137416611651714206632491264222875052061971 :=
  prime_of_ecCheck (a := 131407650482030724683114287755459015395451309462886157653550422853253977319404913890314987438694437771331387213688331455369176809345413275865890338419188244228935008006020552669125957125486813053762139983432250037900671248974397390209201076808901342605040615346216160471367820680887098392790171358336619764967098991455932612088473093737839009401407473493079320397455158850818564639187074099055502043021074807958599984918922651508583327921814902867675453306524996751133358375366275036820944229076026970539919214938)
    (x := 340442349908737949597327573846320474703571050784184753633084519501300319905530700946711324276283353011065659487922848755165616936011240051249016782833954527230911413155986891078153373407093389210020225659409258039689827136059305402422827614089387429157801474669222631705850079257536931005896343860636522006056039428813479861681820539563832155513616642283329573176911801361800183947525205803533203966489878645196629000010265973057547470119961643262422454297388056721614246796827390174276971383068441749393575173407)
    (y := 319073556893871128666749716213566529119775418602569305775742514396348284129184468699692443807498590221630927232050310434312679161336293391081783694890254049685309741668968586069115432197628897566814628657053692425570754373569214163942654688581106266049801461776628874183774879964290375637257101974929551916179084694454028335820724805997560889865502809940253753262470446843266324005485276258773114882098356580178630292199627605416545302556256334711669823557766322586441181733637598396796266810349605636061060990266)
    (by decide +kernel) e448_32

theorem e448_34 : Nat.Prime 18230259514092777876168214706945923551684110389257151007937672051008273237798800710944748812635941898355951309977420783658457434200748149628465938572426022661024902957685766293576617331280696989264079978830983254888884553174629551630472110102331476841492115580786738106488397997963613495243823637361338042030210102730339791485361249116336780338863466712991204200835473230152524237278941049753731010634421699698843502841205279354630353194549022612347154420818573979549906787534462924762538571882809935276574616323874252579194624142065263 :=
  prime_of_ecCheck (a := 16672634588451078256293852327375534550854841398310995696047437121051693022983420680182440300671443121440832586112832463043555806236872059241081756984962002694059405713138089464583204798786641070929058765007499102374754513263829214540794664470797537215887283272818214529476303422435187141105747468709888416787489300325095981881900210089569797712515936785532861204029959929868913912760171891802193689991049576673489999065041484980493354580741823449192622190012637387930444081509807514901064070362953377231814995995243052794319390087407150)
    (x := 4243817911119742991511093576363144521441703375390224473762933861169645242250272206603176394700854683483066396056101325198148267321677025704259917402089780441021677875086446859483521350544925250872009304499986167688466031188646034857761739262980765270871666959678171971058495583708794049896174670793294078956439704650814547613280102010418253322572128962702522448347869402616034589457077805164076157112990174091061819261866261295803380056786270095912906509759185728729223426468330929067390948957754993887656037977206059837296674076733570)
    (y := 10268004209955413882550251617814671291342559847475811513353696894716329018664202203828794646385000134600953270667908547090579740753196419928130233401222850879225875671863409195512153195404463498796787406521806810650510755045488113799045610497495420790161058340906311419764570230542969513326860502461713245690890054520500157486975283931889655280540252305467061808915547205323672663796750256001701312083349997293229813620008526355363279559734549692674524883442741769364752237733205664717366596500108305375642286092640255546898079015155393)
    (by decide +kernel) e448_33

theorem e448_35 : Nat.Prime 3468378540183961173454296331900942639193217555843842914290648775523458097840414844570768384721633466306863367520655141538498000566146743839569427524192275317353237752574497712990434530255817867438227119430792686192316456238950842297216276818438671715725431567267030838124342017318002966265592391643470352567315470866970039144528534060509720604271176075820438219888160621573082527524225771747804398048633192713990633439395799757696625356585449626012519434275008075639032830788976225455941026670383183968774893130528125280306889544725677567332267130730851 :=
  prime_of_ecCheck (a := 2915808953932235500399583518657911074428768594785263728439897791889273097256834573889298522227991834905372439219782020345677509179802858599479145818279358812014340141078906081504316441026078500759717250557022737966461077525963154078650973123120268735457313999353099810380187478511945507007059483897343257261202583925693281206561874731468462698335165545856543432102295816437748139403595182992203926262654202708290281176100574858388442238802688980541876265692537553159367083680689911865036704351324608386408808697391574512130069421112373849089722333903814)
    (x := 847679190883606861641824718244664251758021187263408049582736873427915661407638065226716683726179040048935508920155515766692084513600599561591442979031096509318901866988677151132763401233645396452753719235125997552999936489875494877878324593520925184845212415137582529379816185772656192184870492508811201656621697276091140086421208571392238953985542356650611951539300793168564195020130449319898218072171616766648105438900162225866703643425567601031098922676916410945659472226391748884716168763754943145024491506564600690097250231565288544406910607533259)
    (y := 7408093730766955833043226481607463751366327554602124075899451699027083390296778138846191258842913583399981875340200028437562884794197804453616338564439067357978854604709454119915865948832193022238224106034761773687017895992263978378668510795436752605793210038907124456505761941043796984396256429987660001349853100529209033419766201328833116466934579519916785316807105202251026537200618935440945452131382860112763178620652503396249151135957809004953678874342346783692096998463794205900455640457564355783190707176959373263663763064287535358085714536377)
    (by decide +kernel) e448_34

theorem e448_36 : Nat.Prime 140049699859271639689355765680986213893289209633315324860697049552836307694679298264297328855715513127323862019901333629894594420790338942732361711604882408779283584472467956131428563373323367761954713024014929504468535135904465908094400550010882027126697114660127629762829871263229253463800561485922083264698467547373817828318994239227187889050349568302391590920260806493466925100674899920150816377388863705897766043616545491846917389088983950001305589021339449257805699939799753555042444635602731187590344529930599658387485449510030291244987232960872691813597080078781 :=
  prime_of_ecCheck (a := 44429774829552412001748009901594638975203555008763026885608957618862602776953120188016253260885390056609982801441542222467002799986023382933749238822342822515780854309851847060912269113869015678457490333083392087285911439816460968668634198984007742107859110973855352680816302608367195277522586779651068736121208272894896719222786125050296448851836596451686671328899293990199352126990899844168747090959145910339347103303211277117898617316600574479650458312203638471678937847370353575061925038263657362019908049811531361016051935997645396085589796824460341040461086429798)
    (x := 12122820354307301397153282765361735334216603252267353079859364648251169674595539397326815356988195092067839394761108736496570731221813365930658110221307513207102176636646118648214689463763837722382969550853607487604964946880495920993940351718984720696310685988861783896834690364244901447415288968349030422166743175848616175704754826312655941237682779981427830260113870460264707640138542648860277585487416620204421410438744082639895202999799022231263911954762349692236792684885170173516441258259574826468537076545263307890704448267347513855683626971263420603061828847598)
    (y := 102862003946055957339763781765717321898193906492249881254092327853388562913711401952372307771233575066989952694724586263296289668152244906192952955501067617050095299391577107262460697494038517232803621242787035424334643229635334456679967868080079224257967449351559257631263908062584712951582673048340099350877372878078732317969324881224188442965776076624315906764665298532790333813339205265553351175130905567338023954914403868626534029480075825840986182183483441480780517743291772106248168344368923221701525027728753328968273516158055616414446193717996666417549196258393)
    (by decide +kernel) e448_35

theorem e448_37 : Nat.Prime 8248686008795657659985744574779319843656913187643035531057924344889432409510964735212879775560564224873050411337087435768077954243845032091840151932215669661255591163289570161284394212439768829603663625522293892840884185986370051524968318522584454047463855343764708030797961313868863179326239085368300883037866659389720735743152302835656868993635157903636030094908451503430036933430985219190179385033249823792532949581445776548870207090978375811451753620666717705992802719070390111296645035729297013050251147320794650928207878705567632948678393685315648939766632924474729237785283 :=
  prime_of_ecCheck (a := 2892777675849296468753615330279491124587705478567512186240534565218730774255790233000387595934602132382757713042842322036791787514575037206812170435658808480963651317041259989183843214034115143752991795780695101872284483955563411591660367545522778229454074089377732150273760102713847978508517581690932745848561576123435515803705630743930640009941682757216596256231320695798924808667346997289214056338757776181278965244858696878516231873398684579614881940868244527778592002942039176823243488269852879729184941842565809259230600700356793048583440682255391803409088779241032270545784)
    (x := 993235468521870046610589377432449973877410908392615972812060266917890584403493078275038981031410544519776945976102759429938119081539252619170326312485629946762338965689774008081637225259140304868842850230973209186468314799400111369358272081730354520559790759581876569434695036020022365544811706035931370004855998834092899627178413744399730294981626305820264662005613585912359819231983524343526631992182731390329184886875319450994670227017207093174157745247169122529911196872702381357598352495314694936140082489034537686668757264985318928257202668862013555728839688032200263851713)
    (y := 4084455018557996642763182277771158117528726758577406531937727221933782092939564047844686588151994029132353120777742401362534112543454768186936072598188345636395931390766756162547400105376270615294948205820412704259064713910495779334095599386054076669661628438600231234488229010461604429490870041054860892643201993521387102175091698483108542693347699125062446825412779512615730305059208425577985687971411350347359650871363005821885338349331608281302903655559373653932140727958758712050295830192182377968454482011559784902227541862517386623399932366965515706875235731038938430858424)
    (by decide +kernel) e448_36

theorem e448_38 : Nat.Prime 4322879112272998832520187915979453649159780780973374247720784073541354797909884434053535520622339223536902721307760210158401471544559963007244386236628569669153531431571050289454851984590674590647328597649445583663092502257671487208583482946302035700815780285490860524660764135319838726427823852713496748899818015711954774006746364227022172828020561748553073545477677501563883571164976394384009098594313824246548596127739502420946824608539284458837144567251118131479080115440407456686147978565165706136606510425946592890704618395781480770895545966242650915481709014940646214628460986947544813187 :=
  prime_of_ecCheck (a := 2297757129388465218576345504064522899249412016397962064077850673996517074165715775457401638557241565861517191134112664894914329296245041122165613497628201379267256931098668515667214219199532268544841673748062992108002900223531382189449018919850434496062931450598980445421073214101580821256745246837600520449083227563028695134302593584576166753835317904135176534395531885793803615618886329015958858434408221942813190728687124123933429100741799846019937535209159893108834369879734861444542417755720614062351920184569462982036076753983725171603753583212095975273083122653588187640408743122127261738)
    (x := 3325115397432237672238769159301588447977685160861788806700264128618318383180346425428792314814609216605598757351119767740935715471860166158830799985457000828674509261750299806467563233732253292630817608863767815704845152798086525912889215960505766505759095149989586356632872365276014563822200500972849414183507351327878032735247382993374939562376862965543555878555610348285890391474753588291093130464326334008061813791703464999622539258525884108611446033220707771829792030642703744278618995244409329840318726693488770987947183433338383501898636551297539150165414791324170467084419087274548108823)
    (y := 19932057485631339201290173044254178595329556751321704917659475509292333047746803135912298573242290055959439808121235470399509861888596458757550255252362526436546913442218691478357113765932138745403504658696310787959475110295176537571916631166421154236124572404739491716590515000493170469464172581389247639599166894361162363802962690956058731375887216605285040189224684936580575168380836927256959249244560033012233255129266188218110238497697690904412472472047270399025907563909679016586150102837125459000174037622262198732531709931572830963265459974414189945441901028054685261088983652800661331)
    (by decide +kernel) e448_37

theorem e448_39 : Nat.Prime 1220506703137606894227575993779903726827918108988764427709226454431910777905689227623363657336059983658859552218406589461137707266179813877922751582223723860926012046444613110797621945233815731224758715541804986635998920608191883616887643965173665730602446998895389381556364218019264398584270575530603307071218291716117974331536431470207831743598590747288201315559139277183254780108774155907951983626463062306793031637136249807008627237346358128291055574922150125647125525828295381088025454269974080865434663119971431742032203751385173217534549301782420426699993254604102777103343202618889824709068597797234441159 :=
  prime_of_ecCheck (a := 0)
    (x := 424955458688893146798474371708189943072379348205698003850782629524995177419476998246041874161711667852934265700062109884256270234175631844297278440209105861771620398428718377462858492404401563201296097677432698187574751045512466600151815554928186120847885563414909877681400426610879824523555172509737214846558147336297690745463789731156546602302504110719606628639353011505652582032658635651161447774743385356278330842235762791926671078490998533088094729054516798524382766184758538279166302632284565759136578575522297750557014431583440103077439287149630423859160354526703027839131556417689573723466796416257796207)
    (y := 908300027447879862962468521235149142314931580749033165245080662207991731911007602832583640381453650777592098142178846660079431446502827616389738413719113042354909416045342152473281394447093521603330758002860785415213521861469940301398309854780976854380310274866027891688915907380765260585687614828795101735319740529871789119657289213745584298810658510552775456726932871562633276737503434953334283062325407547824897453398277012382447095445201963454049282054353361332738825798737746593096656425130334986824351350244024371119701795946247888587693113979710760882717812400596111291642635274650704866791302697462194880)
    (by decide +kernel) e448_38

theorem e448_40 : Nat.Prime 7509159098003003990572657408324386709007487310369880567098608319421027227870498013567067439540986828521460128046216958656366436086266573788790713681513192085958757029008998450790057674709006228651091978460044566240882589187939211123424312546171048961575467521240220548094743039003044344522350557890075718909092421269915554469522276263918469221733605983865116401131829400160974896948264633722657188814505684390143777179516230643499313617583538841058337071518339445400054606281593748631857651897524818635395391396700515563067426562489647242980473977209697151690739864976114688438120931617231517994253912303665342320717726739771 :=
  prime_of_ecCheck (a := 610365534634797313483969703361836275971803342480188568379669949564936893280567247947818974644794274038857399564549666689313985624453135204501364242988307626383089824780344237853253892893174111968502547069163915924680879328771863866621485642999019321758023461173174649740651294471748651974737252446378399770010398731506925537946458796543793376572154866786763911351465756981464951060900169618380440827761271854477694540592717018486467243156644381080350776751623722184225840593729849174730386364886107016711648071034900563514799140604956376136586393155235773583889420159013314452308397195038599591416926226426627908607230439108)
    (x := 2208133480553947866534877525012204164769075436844512717342227383293390444726455415509982323619008784869347489400867437306932548528279494542014819084374618965153470747315223381118537042267041245239581919315394005572540724346201251650980855880122425261579079812846743519926434602358275338742796424107202299894126104886760494963340399792714420984792305260813139678381924756524541203495118494484105425801308578153100580997972626596232734585630005709907789857313609380410738252456597233364890735312529547936919341723019124083185565827477415967077186723908798711499716070759999771607913646413012066782482138273084994205002860329044)
    (y := 1899440353864375749760660999438786490426301604214540574131404930107602932801682715471526249872825580786394067250525573629050365079512816077473210807890050248392547881674894465490597800801946795511742762918866673049310706407940463872637147986912888328954617559632401363869628590896480678904127438043097022120118716146173812018073596359360622699535838496906340704141418729153212529208803002301163553111368581731676763701060253743410554115669124562912683885762973527980703854572010847484831794989946241772484755638016428774170251360527223219909324797324182616331869597702447598217055250673212204025311367258431755759343657524322)
    (by decide +kernel) e448_39

theorem e448_41 : Nat.Prime 117677751475742026662172781606023343162002724332612192379918585274764263533611689812690956518809907484775994307275162126221694557759752791921734058971251895762333837451515142209157878587079975850968990316364264522633830419212983937979618398470793647698299257627159990437831318905115963874658958940971474903853767559236146478300519705025360289279172165873085246756681165010932309512885723937353089411380892768038448191751099772765933015290691703522346851239095966071775282320114564168143960127886031775047867149607676437063223990248498804654307402310038800836877234486238323346457925719822763294960064830800908916160602246916637822884492303270581 :=
  prime_of_ecCheck (a := 63814779142792095918197819915721600274748975987753000257311640555955122334028352609111287327436604551483891378289796536012724596595917343916422823314664738196491032949992315241324325447830907663367149939703075624280625703726969840196877898396493175560192359066469219342723445870195915678591649894847290774761948779316874370191486524191078817496043211738357505978510934014969310175320889866288165908804261868816875278703987098837576960676022588449336706011397846974933254156976451225604752339648887335840524578571325632408554264989293977092647692451644339483149407373074722443042935026657372194695571212491092178969163293943456957114784076325020)
    (x := 95156851301307711741753881958811694637370420936123198153656033570034943212192656880422397486867114708280616089913150272756665850875032409104207601821930426120670130840295592154236309631240178932870158065227705220026042729135382760499890494110431904308515053236525257126618564954626614436015528602856353932054073059021514145344552941976224316098792439632230135688224775610774447738347789102823996166961973957146775568492480623338164326224285182634539680556509219904747012944062655513942028575536105129620476701222383601567446964030047525143806697520905748038930036619888132697792857555721602329827997205667072151208699181088094875222071269257456)
    (y := 70331173286832038251939533785296835045539947339090727508379639230834084667496620366851402812835272314035603689018722464578851249592169780013461651239334522246326227741972038440436535913096183555080209028795327121524407854770346305119682519192223180564188675860539417768970747302967310539985257705620237800038059172816873254573507597891169785275691869634447090757705655311397388068012346887555560089081512348538390889771430187323307585783140011703882211101103267597098781846650537402369363693360565084785290934948540481014827208428774317442719103221506668791506536956187786998554821749959325525399894054661146375664310028977617859545728454895932)
    (by decide +kernel) e448_40

theorem e448_42 : Nat.Prime 19947742247447197716496178102083139356949060169550038611642601819852605739526134076688650078208070045553566663468251285160956901777131559310857591633311276114796428968071213535303245142407214862777106557939676839278368247620589577861455988542721905168181780194077225611105910551766209675046573757830066945225975554247222720111898637921967437090934782706926282910871783470822342634354789904849392082748650216119742905877471500778077674909835451393228304280556806434738764386791716473175777139565489648649183087930604735433088706164560160375056614652066645105057013985942809314023229508745308233670072409377315832886878019225328820051780738518461572485203816465739 :=
  prime_of_ecCheck (a := 3666383144499747772545093963629931218635409004625642991297348499287054802890798076760785552444663061323517610945391364699542822570432932470399494566967907000840703700849850616842028351245721870569754015154941589873313696313511277169883865496868087986410363818493497861255733852784827604458103782371274706734314339880816056110748814989271682903663768829077138225190133924902609267534159348063316653813271123857434422525530610033875659796689170323164666940329713975935560429586621843934571698587820677940607438063763825757735282274632609972907368386984111305527602447210094702668788741669676005030489024178955276851258691262871105524109796596055633863649629732047)
    (x := 2018763262037651514965368106968943023929569029169140631104835953720905374813320607731034845700559270516642591114848159914064295671379519352544041105001234501770151426006085085155518870664403112117332219118117563881997339430873720980609966671031409807798671341245086276964675644572271400801667283861879934096480204539669260689069766262744212211073014024514469033362836094838247881997900383153052621019720189650293802110307610945572469304882524120706313669094085770006557400325117104188924936739485731949364629641668906310791322747736275066452052923609443313046676166533207117266670013267877823080522805238399493830490292958994456602793374191550183264226961621792)
    (y := 3443187239110170072847540760518476277108851330950363546468238306061138594465179654713424878945583212854206040644456720287012939348368220273182775445419948503054932306596832489416025255325762608332318800026985125242745570227643229824715211592280042145867337903278756332897857559205519958469973445687187929667859396325199460451520736014490259331616376103317997139611655933109877600874092137794261856812639870795138285861395472193677132971451641323874727177468364870024998395659061987032703804630724663199061722530174282635152483467126510461868056402680439049879793024029444162473737349423998752700511281603387889097035466835452082714875194005437061396226837692416)
    (by decide +kernel) e448_41

theorem e448_43 : Nat.Prime 2094284813601613954079012850425954209697965248350655079980910446290111768251006857183007246809552967294083549075802962020203373983470090451127768154079765444299976229685798558808851012041308991682425469593069469979894678580882116613040455186300825474951583593539809222014032000742382017506046411954662484603141828939520014372722157308891880880205485958463776179450705090181300596575531128750101516891654812844555130318573310952633508441148021026463569126258742332971644840452722150468896093660418056160043005047419135752300105053428137330388643919260205963823550319540900569354690347535545021652063283819695904094164206027419270991746322218180408265659519595450296118269 :=
  prime_of_ecCheck (a := 370961193209173885036389741193374261279324042051653023441756165557853518054330885083661494194961993190214096067819861314113012897408748906278969398549046970599453446253759951016642702788795281578855624260876121864010172634030127003263908464287826206438518529842499477753182665749157771460000497609694566272986770556444500404120921264561729750717863150031636972927299517485835984906588718287915272364141367126266964711348901103633147771019775208927572210653154404839220624533114425453681550040145458794341019591180756031321260857922662663092344365979719936874724436723056415646306862458522986222106681615672244923947458572811850257180700520791944709147038503257922228513)
    (x := 895588530806195691533408226777058766290438082565761535429049062575957607361767685456000929388489223969356472663821439034818082201196556474785992453315455725443597325579798896462162037856164936424919842607387768902279566317154895232272413454903804255657336442258896361943817242634435922475222750612891345911957180443145104635068413470954402874781246415375571629292406182537649448412611143185150996066326379727610862472649710206539333259680633861779722454089141927855290059011101066170827232547788878949189828397537819179239531809087543306299656775591120215207713623243615975411160951308370071768645991624225176743615842924211579490323593921998077406550325526549874742588)
    (y := 348793847335152035961118059120628992831165096222030481564502958768866583619809120666604768013074356774566244840252907565729716079129002182191026620173552560196840756689507529481034785426674947739241672347763866564939318248078969796346754685175519024379200289499197244098790626578739633575803634094217035090908470249405696123894343369465403746066542927090310743645031439896826252094509787167893933139082652268642706468176936081782522811503206707038010386371567737707771232307924275022081937895245551795702476526646440214339443991358086247337065522203021164929058720972113330639171881311358463523367461217444728451199471639673596429756526168761417340065232153584645285637)
    (by decide +kernel) e448_42

theorem e448_44 : Nat.Prime 233279321448401479183646423813146866247247560890621132350691602540272627431962702598583118482514022650896815287321394039697018270482595558608792094758135654143729341359477071142426376882250792148450541669509993600425887661209695138989971425016111391547187042317602000499251218033876846825106898481729164488728993929077395883196493810121323237381059770959374088139216355033848382760116196796257624424041973669550849899118129000732641377279712321146077318211307591575175735972260452929164277946001934313000487065542750573033380480118524317892242432282885411415040401582267972100202470713399383151576621971671320917776757818833945424498710756514037249814779318226373969988972586279 :=
  prime_of_ecCheck (a := 0)
    (x := 75596402992153052217312332084285983845988806721455513132588206044278008040060567105107318594189296323778221957167269773904041230752189860717878882025508870914070775594856620497855040471320038026821468456394960418399109209071299140034350089353758727304416037096209772476969948452084484584696597022078115866723783869150320775085638965505217641403358422187758832613488943601950421794371570102043492123589478716248802724928256552296964273430061266980567277260763565474269012608872179008680295077968468899361027907548060759612950679553518499264222681944444087397322647476053248985181606346434418819833524159839500651480320293170563273680688643089432973794307901776922417408734092098)
    (y := 143061388622954939949066660159140408620418294008735841635973767674759513757151692332161977073504095045827304380507540345348880169890439964453811718765966158259034394255220714359175192681503133510277410380614160028173898558776394030995660124557393249432407215293347200068592060097423471418280856024178328404497536165384418782618542384373850329025579151854437896497047492997164111288411137367229964766822849355685921347322143205906773551275034833854404414496382605929570825439244936137267320855165710020208041697344227347663476203162893030659679427614932087262174760302276479488813790118473660075036946865766210887651642885873755282161790790416442589757831552234309004832840103843)
    (by decide +kernel) e448_43

theorem e448_45 : Nat.Prime 6422076754898833655680832362798177779469660316138659494338341829215871063605510902585544119905449250145539274418642330060402812897215318797782143036658359298716354907882511023205494117034529227894389032205409268876811594442465683452276307601798172222790410146283165375149463027507707362355026613549792162420909477818521418945020904690404741208954312401859300428478810072534581726662244243103560875672978668530037195842657852227744652344813238534453036404474516510531695447427610205873985291544872837806831400093228586408007463854289594523644367562470127469832513614376261009998652554383438421168006782370141813531525834733295138039954574152552298811495615373873078588714165406281201838205017 :=
  prime_of_ecCheck (a := 2638468099487669469329969824985561079500741948063962032533028021902927210759636802067143349121256048415800066529317941305394438134471985959537940047341173989267419499566187801080601121052305918807328766072488093014386975550732553715785944003077888906288880800568839464603000453585606208243709195095035827234945585594602429341225530658372787304230819366938415762394471125864428067254585716819910792156135125836352283118460779288687674462440989740846658488346668720197751400740698626903652881071445885743951104156921542236677962505115311924236241230764839095788080712263013783697662683206124977818708583992054915153833987814782752135216011772952246047374954587590486929884852242450536282166298)
    (x := 2695749821867644646439111475642911222944860244064111792242600863786675914139776045088158623878386197257806610777126619045654815588508025358774305893218176061119271040914423153161159938543607817439420481780376603721690293704342599704057037481510363473946510448504855810490544519825988338627450690418357906105691276006202051105974544352270604157661433558211997000333248218035855175441085594038853946061999707155798083600329854368364722263272695222367588529970216818902507143045516957961554924691819996116773787658974974337898061661584873846964781128811819416301973285806604357656147329370309352620159190033443036412682003672473840329273765692614862535533761379070987684494771161690866879485228)
    (y := 119466994645996340827467730292847958450313160195563237592968102466374072285073593612802793128867173502168864899620730253417069312205427041349082435386291905118034056873613624887889200712065121967615106092380158226234051763749989455449886174675035602153141551752787457315255891376576333298182644457101301131425878917521347713859104690388613175989161007658908600125112395023984377019878510040590670947783296357145626353680424245504204386960811780077820883077254039807221764402863365032982321970016634816881914368130662534737809932908871376080739295235894628771308519153239970656783568062100970674502144744495649012551612227035774582637291971711250003683286288307472409450085243950776235499445)
    (by decide +kernel) e448_44

theorem e448_46 : Nat.Prime 113573758996682359334693093464431842842208683504302384546120517833024584647404693410086343710440961626324077923561805368254729173660370178798895931095485289039972855915030726654140680894402789207280992702683108054765192215226683277141913957509791596736067102733248173851631548161877749154940220733398983709254716445908503436177788221427076187398634167786616510956207459237776369705073972152234064637414331922397623168447313610170507573233344491970659146749838844295483434986164427234402267605570324945104127109986690709134332402127888520675367569635587381445279708549734851218836207346337695581936028458726460613038853479335473729796933849202544584264355561739382254789986213669529693905657620737936087706220605629961 :=
  prime_of_ecCheck (a := 37107938635475098952383929364325595823052508177402186790930606981668093464093947443487969420665543858671619602445574717569761221338628436726660723221783448213312223792148902868976090209070654316537993389668902214607024846671618550820451452781592226363943870892612302134498377051541874780942033779805309804091834980389367532164252415525523342652213194161067148625216396030191545402923448438858149839772980113964531112412789401015991295995175786391816394977162795927061703534845621915440251296596441076850543364436653780163243817039863363422938204267712930342763024912803518643003523245903148313926295771786078453826508510296986341902236415302782300409517683127002580510419747114466118666367861707097314678659835873696)
    (x := 31342602531546752806596200280897457609469268092908497776144212192647914752967604600997299588322365298161820135097111783427300388243071905440108095148307546365281151095898851939361661811050176813764637478262285187165534675946483314235907781160154833464522024011423020128010016661259862069006386664914363112998646338741633357367599946979448132732186569105286004332475394337817694017054075591196550406524931899932589332546849920117155335300521917928371266407140411548857444607982247834829931547771932529139139857268430389815406969569922165248830083120813817024720471410505897782035784355585525335415122557262071848314497010559517882540866054852295775094697475362814616650304462669643726885937707457035170409131603637492)
    (y := 22048873151836976508300519942854881011351826406622579605890465359112024707115340109382115393339697468049320474152324535855929414121277223682992822109322304738157928365578450071093089642820434190267188619100262301814006114314086704293423826690080003515209116783952900828526046061717777986279985039145754323271722843727873450539482066622997579167332896397034015353597918500474659960172108578412563273287126992683195165825860923541428932887645835989239012934107244659145570367617429557585119494652069488981260100866090656042916238390222725489280799371210620572435383084613186643372795889153995167235354392613159957578728993659151256888787787154767662413246513407831749944723821322494812058630674706766710463183773520522)
    (by decide +kernel) e448_45

theorem e448_47 : Nat.Prime 70362807364152029745024578325562093147609928528119460089141535271454891852412327627813607655944861218581332192453420074690627380714358077899028588954333073874311035075946908592530199025905874602396617471402938016579951634406900086727820787448236419778322934410015126070712002739920184520633968655709799907910101974439091240090535135351578425798272981079562861444313053639906254810113099555642813110692072567009342707571098429245606886582301964839472821405834974367974142556521892398975234505027653541566319430874493952291015259710506107128385383221501252066390132048091537329889500113353626761266463652693363803542915340642639320320091735894321504116341494197007951975997622799242412795164525839217438996891109093029261657153 :=
  prime_of_ecCheck (a := 37755291831707588149583009690293204553951708967141538595565991571895430574177190333128939623801497924575202533248105817962560322464755542006800401195671774488277074603882414088888785201409169994374366931940390027759759661001704619445437663520580269032271327398380528364931178248093680857563614623462304912519389526515752136077921098813916903835165379784697662466873819248296428326239510780190283294167520006474521504467830696534656794435648555351128506484014732710047153966581241143570476292332980896542765953064163359685131661387261732855072326812117509588145981816233058699871140530749834077912950554413000985319805288753457537738734249200043973758235604033311621610386887370549196126623618840184167714880524160823087789917)
    (x := 48156927381894651381679323096265804821316712642329802096246944963157157308588994138199069204782359336575125228559576965662492463798802978484970803067206390321383098108531706622708479421070417087563894849497734233484520070902750191335711791126726695389449205914804620079183659169905733368069976349501827254177456898619079227523923753341679696760241430718186745107089569188018203860879870143171505136058875630159317430552686424820247320740808021409838146006541030280178077561646717192115594798964403853760193034396257183541355636727970234772334788216413830132766672466532877299807274500041389276599139542811067902050554430828740405588169854525533995565313237513131176937141743797863871837801895870429850646132928226681133797826)
    (y := 23727401973522632024387616739780604751736389354177177986386994166008166151232153189817208320205387918235713564419028902159781302716012400496623196506132054951159831469711698217687605675628741503824233318873243780599583649315126107338871546462319824545136132722669747791962435349905323303119249293107597068980148000319145983272863269037110735829405467345614943191198944030853019653620009153709365378114925807392001342964220639087863660034714496291089860081723887895186022686313520066967331522337849254321986219889453295806721628755168263240670520842423900435017066123743876714418870248103329763647224959456105464739030281432827102410892557460696504473287527639776619036754385800893423209506855932609243604178673575028802774316)
    (by decide +kernel) e448_46

theorem e448_48 : Nat.Prime 124861011552378662705344316225641405219093305158173264576064674007394976175894084089529053527449806492628865959408762307102804095611774505075978805890357328328816102228946419562003003767430781107756435173569437862495410901796026021409541847994366913657870024898972856557542951713858420105100216930610609814272183686214878614079232121118371903602654451285201063463722898596284459278830326166600560465635554629043898107486349008569534797099583850246325508317031322536644430276825578848588402947477349776255481520908332063708112623825245945821691294422149904163722647464308135156542136360483774390340269068708056128326855320690354484638621166973981826096830025739783824060666956440017842651442531508444156819037740152846694011774525798573 :=
  prime_of_ecCheck (a := 19189508157260052742351430310335409003097215003982291971516035036609895802229494491172959077769572557298078894399865760114477180941002736914017412792024952271801142943840850102547174030277136730351305455325612507799425393808898624874985908387398880969609737419074251066857694807534594120890227661653754669871074396753462028101801381160950332628457023990559705970914502315810921541785124710161065199187009906698501597134869613724342630318171952012251097864576077257516319463203794336018453615899626441446345893002339696277457084986583915433902489249386554271071273999321752383369188498639008528100547878863360503612254134269990735224343014509557982937792550360687852442815500136390278864523078287990092929713975151649180188851843317328)
    (x := 42549793215257729485819591304390813700185118322568719665169607440519857367101345344111010198394984854911805791806192915450358314051468159683459010719218542882557563698533229548531266066893097951091044363212458276960869857042739510280327829931786587682992059693909610256787513460181046208216887521125935896552309860804816443218088399449123725750793149875841857702734147654905952977537993488591008847549104476013680901538779395502647754228681453607832561261578039966862620045233578978899135637746161577198032908674823383308594734910277045471428478965920397327223991266248838532072255036116006011118446922291888978720504205776085674881124474443107427191135730764317793754876779065931435113402105013567418676019208479609355470038834168895)
    (y := 58367524368906436159843578858209086206028353250577834212533753966929252179048101063506466615640215192269599652341585890827501570527166483395720101628492070411948889073342850068095538009795190438925903739055228052032286322455044699061898964936648364364950136209063986380237328870163883021509866801806542355063989794641110609099182966000993358466604212714069353539018804985253704212532918995418503074290485072397151689357067543012133468853251584044725663302714642638613178717906739975518117910058838176195063678695001279633376030219942931844669953644758502830473828262182600227045942322968840196952874432175010086532546712689154427099998780373602603225184923138537857179896714809699896630453505040375898661163431991537077580110505284212)
    (by decide +kernel) e448_47

theorem e448_49 : Nat.Prime 143000614039205242712655250900846713614853000342158996416828386796865250157387143456181591238153715252396113724136030027073466597612319919416130661900951557240978732987095691008057040221824931330887148924006180447002898255153430129133140890384190436134879328577974699246846611138235153794726523661533085284247111868678196041872221417416841855154638567203997161093184226943185012020319989198763620365623177725348932158135262842264249103759647843850114992584437283220329748200013722479639635407645977336460239230784642778044993036587476771060980973293803019295413421472250317981736779159923723225465450372135745572437963872997796047132473915523716880093163406060555623657816982190446132564851533016946208265594581741929828149814887389200974706471 :=
  prime_of_ecCheck (a := 98568111690945701000694441825767206441350245578045547944883468940718765694041157140725475885847134186684222162089211422804985185042876512716386550041478497388189214684298620181643009151188505618757608840576257416293970629332801440572662378732178577825395468008104651429888691778841862396257834258446168574998202188394582047508008813597726721152507887913929373080159080095713382580046690601543367993501087763266427248178939871256666651747203616453458160448910176495596991322053304826068115802056146154412600152277101151214877034639249012745360169928282480590225665603725954148566595212235594893525227684288288928960687226407100120790388517693724045476821713289512255137612712452674163786199767506552584118604729879240048394645261591662170405070)
    (x := 55625379108601270641877381072034232014551675782058977147038084689876598323518523998415254804178078750068688196075571470405669852271417220824462256235603679283194905276013940539210643184346230889117312640199425370862477299453096836686278098975218196699693026248460144008738677684178647697096420066668117623521723659320027233643531009116950372122773601370157136850657749112699204768991611078736775806083659487472235613061135574268504986772016014787239325989507341698366954826602951700438304327879986983742610300060993330462832842431613010927283609851834212675331514427246525957227896658090254397168381016901481636492812936735086620795128545331225729687015203701059415077470657906398043751922976976662031021161701487181076677109865194461398498160)
    (y := 120871147148305546073326942041712246744648787855100526981069467146574414240218338471996874580747319197367139466857828607156982213172384022602821877165237017730690695692689341559020669971657365465971373079241780087954616982658360343388805384934144039269647227030586371176805216817047117838651115585094112555115692012479465623364356705787585948301994932292283187218742695757355086619854613714908703091363538790819378499873819498991142246721554558958893707623905458997353118842621764738511906852952817636823428851282968802485794533411188806854180477530748201578413255303854453945615436630508482761652064166642585401290636711471597150146722115027467621048809459685766732658727477899437227651861339938371143810124377752119186037198578798428777758732)
    (by decide +kernel) e448_48

theorem e448_50 : Nat.Prime 39194662805929483085629026774314712546493665160244886438679166848062018373613786644170131576772976160578241704415176454533816274912243157128475377258175773806344361017458441539993872588246465052242905536815833625593499780555498649205776241111190000622676920479387758486999665227318014332102575411304917236081741899933903252415958141986005226102426416060257756686457318811082632682681677815846429930438236998120825910811829597955528835074400504525438506228816789518548452487976928093599905421877268001232186085508070783025919169097393430045382480545219114515982031438867118585525269649754143491429084491082148234321261878495963593428232292095652655659701454760984590951596797304861208592584139307816512411984233184526159363268700638717048200608650864383137419 :=
  prime_of_ecCheck (a := 11395681910691182087271433820365411780319629163019575549765309365387208107661336083052133999924721367109398168549392331409533526976545472779336319173156371385967861973941419560454920591749124267416434971076879521357645943720429088487809551621490591225397662464024811565441235817095140862270391014229937106184464519063309467497464087720652136960683079063628975040821812138826208364791536806766443125345335446230373124325480573625152617046412627495717405658789850762720268846406396805682861138062847269679914627178093888371897427772497338038516439755424856544708244435663518186773681808287383983348414729212362793059930008869710477917329435884020797742301540241217154600276184466905421948676112538162484569055626838307647996014823027883158452742955131922156618)
    (x := 26227943604830868556306775427683797543829583781788007237050102782067484598101560824540193324270697533764454673818682976662768013976036876492436378937811337354029706851735015228926684431378233905299779716425505912307255558713604636758813654209122839590873464223290198962830003898444454315724008919140371977178402413331733907134581490836106559790804969770370132329972974851190405067815994563509230118711585138061509905205013473645711382195055784688492936579000086704175522457792132018879310420432772794744426879940726362848693716516498040246649780248078593632213662922825393946026446356464596416736560439326175960955198757857326056575702320313770891972004255161201222701607369615742784961625726176734487876343013771393918376793316486126719278276238791682591726)
    (y := 18991453524182680052375850068836717379977036369056514810143925248064887091335824799343690854693672505557757185180361850039883277192058431398275033622418450147264855290845610439767532520573218129729612232675965927386669854133736048743897372540954056232902956976275108742863658736779138973854834102433296649421639652254326816071199383229921358989617894144983195017518948091101671255854426027536781750980149594174154683368305141411357938833373967215255147641252841145688825344478831629447367681430868175364553092025977275132536961481871920773290059487093959223805409651766859822066811681431642768109190270055490863631763586558851494986723167884526272309553134505018931818857034675865470347852384462583090404881449002159083893794758974419690648287756009345864792)
    (by decide +kernel) e448_49

theorem e448_51 : Nat.Prime 3459846813847327469541096397851499988729874441767502179542433449018441372187107230036252896426534544754066853630236594545292847304772944095734756573700487164777463078327509127251197921090299973823803361503201207505588553831933142995356265656449498820390982774656885860994694592274080535239441958796851468386123000321439293511698763551063703605964353752521365942816583589867575667127485658170391394446030696351397073072961598397034414191037946459282397118222796317504269909556710416980337113148402475865424853030482255503481104596049455138429752312286708701465518607548214548506345129877300505576956124619857896570589298190648713652281350079569432247141769957404174065201503208200817766280388327783675854066275454834650936399196937897446196979097924661903040468815358946057 :=
  prime_of_ecCheck (a := 1122051803914894182814734598005716366143863828238652171929730052973844962358871867848912829592948549734819353588620323883502956638275596463857022572585293542196574950261305278179517694463530400543043416018503061667440583299908742823830873281336801053602125859740883700292785376712589997509425873944609171327565603220424733876117562677939532426444181731378719038372003103966545856432444574343961954113523585402651516742340710599512964055361628402067428285157355101671810185409082613567813713140294546972018812088314416645119943970972383226936777438405168461359596818456006382245808234762304415729361222667370169078867213949267215790563897974137496353019258473765051518768984997567818291419124551000404732660423691620699602718289953629359069615040312455721480359477475214791)
    (x := 2186854530744246097391972168300944240307194744450679222440437358963933466621396476596178033466432412326198476121762546459729700644770371825432536462791149116178376893404779740037320168673781892630682329382077239361380614249304497238746460381539067022625861173768879023870654227285086886280075018088937224043626386539891282894514217284257650493119111832222573324748921688972962170537163708462680225369346675827741243662620701906549485312681050322805641558288879673526774922195613847650439940090830644579044566365688956568645212076420276480609290195077345649178470294148433196389669622167258240146422347800054342247054944913759114910565291696944250818218722574053832383551245372031379290188000045854594644017225300055306169836676573141865969824710677807262057003826903869293)
    (y := 1836026621669457220389318711538292010739495495031402471055360392577869085981732590853932631826718822677796685486668987381931447841100034728804054337207153472096574790492965322181457258939899477896522306430702002423837501717862706888506985883048755362524844207740995641629704229335397048770158971717365297394014254770531207361051661962174319830714315390005936899528600428988102501526772016773078751601701197013521947404872400824312017190547435645283014354698113661648797881926471498625683522224678758905644510260330616951317714363858048898051394042688351121691615213177860971503788249869877089003841685765079930435045137311711124832226475718309792862563986780501906095340811472231316061656122762806039016542000531624582483678198534862302570564896054870765077980846032878010)
    (by decide +kernel) e448_50

theorem e448_52 : Nat.Prime 21003663186283628051073567625894633679911918359814158942419746950063596989136702836645942613308329963813937928624147418865959744585542914015461400645600043404047124667443081842774016301378606978165996531122415828661633957730263328198908917549282142705221061012979014909324286564377798469853835171194986715268589593469180495544404934420807293682056609889576506008611859106416492156663622343397550510227997243291768178625088876858879765643655399875414215741825600231245281986615187499586830672963435687530697300737901154847589395606920611061165142120178874852245391000841595497346048782206454694816072810820934169183708002950644328162971889138490303637928174464615300743403949838232457376628893790552835253645261322789844775142328924713880134567004602771413111353850645803710460839222970450487 :=
  prime_of_ecCheck (a := 18916477434362758037142306524806780182009043358008512502818850517688544861203719468653537597170321504183337228812646284527374601973498614929054786628808490236120229682406308028507932761354221662167733328207476304916977631916280367149568752443636596507642530934763108887289324245907915569282354638012761923324709228199786255505390449663839039707585827912834508803575752936060347619578051708902263701592556761656166652916787895455962702571949654917126899544307827134284585971576517438230284028272484348182596703895458857658902425942505067033799206033131419681377754147896278869516104241084116179003307121433029266716291347537656827623235251214493576074314758411945072749491948231513996461067018840128015788253491977110465015534866903690034867914417816581099644944326944525586209129503480395907)
    (x := 7643003256471744300734939878403274314018196658301691263984715685889325044746768662038300466063908146401110515691421050693036519514497525600684385209244520212425228138522642607171798885776345925085953673420527683619532030222733354860164583582215886757988273329467665272047335929717586793832779459044493916510893100628240997425865472791894047401049099655896096604515172295656175488727880479148570262543964212591707584639210550888458114785491230017087855281754446399188122236255027700762651307486591251123892655155333991794870505771825057755929437812097943162444280769600778393068711227287699495723737417029325257487670853848194019380055648338420598263552395678127806192313336056661041304293940873306822180043246190249509197299947553757906311704213567033913937485180078849533391678871307354802)
    (y := 6793394738013990623663050321598367745579646457970780602229073563027974803320897729642607731642297165771157842732850860753315262144194546253220284268248448246894162474765699852491502193135432773629917777230041780672096600980852604642596141414540582850779169227896055073213766838942647442748799169982271657044803250538088706741589317600056202320057629588312461954960753137856818629092297414716876085080196003767147615537710977413580560679944832766220712369022283651739488827131323423378033790421042240270007570668148082427431773892806020511265114728583429733894049773257117422442784910193217920458487420129810893701494442964077372071287166049205465425383933903149022083491593589974050128918519332065546874699803181224723119817011456676815396147203335761522957182041765451565698566121946108403)
    (by decide +kernel) e448_51

theorem e448_53 : Nat.Prime 384755254399122200832570616354294581522686284738440038608205034715740335214108252374353898352685714942020085947997885807093753308663170849807763054565790511645373842330930576800065936812562386949439646882074037854794135487986055791970061913093776197283416206859988883987742554021268211396299743772995839229389568893739930902969715496019428662405990975940563290220762504858629757888278223432224680882479670854436426693921442458797445424004008951010123956291005429750142934089785862349338146323425299937724646983098389705456511087414110829921956077632251776473667509157824618158180255870291546070466537841603591984512369383654224881236764670957299234905671621081807041476687723932141886522134535921954908586834868018847599820677805745898924709378822255520621891666357240276046503327987512395302684650643991 :=
  prime_of_ecCheck (a := 351769183976134887855913936797832663324615949495792018373363464638674779746267823499199164142237184782390267696459070979338711625515795772109031708549850022193296761102515037430211066166234976327197495082628858984131021911555151005820607507457500996865054336455912252382021194600508266384989771979890385663740226511313779441233163866636533334881186074159771588039099592117476906709575926785135024427037902164147823520311799840839183208015620653789359940727021626807692216100842541677486646260062055027063164499850378597306904887340109782461390080695418093664151751524512401908898940156420980085315587568703588830102040194384236629127424220877449875522468678707936656938214503537588809670848241591503162610401161987191704524241236993015813148803543698648061228036142834130766446838178546034266892903265877)
    (x := 209472762980534515251060306710859128951207540661046810521219550707066599650972265411553945334655685799718096982783140638164834172915786940162733241797794596357735315931339527752124203599997466702024377518163412843071452620929372666974914108054372315705110134384790226351570052560954358092251272426933119897399837624818710838265200424728812839905129265206326496385708062748416167959936518534336215076534147188506805739533534698015426153648001094975117873615658241169263816819998536331127302107473866813016861046571948267732802411450722454309522254981813184964608237411905349661955008382849350685756846811691758280779749396566458271058624027714514602237219147743369711132664481171410850560722995094011604024976273447187788080138487586353961185308841061776551235460613445508208970895796803662121578042146552)
    (y := 56486768291891027469079483436035632340573883302088287322039089254336563836862705306458366538435910876024013116175577171968489723919438731365096709911953043573246760880688562422355006078173814963511577120050170213016742915018151442012103145042068867896839313786530191098781984130655227325516956353354347706937614784506574343008853289525690667819130092892988174372545217933868249002620154103076990181888033628156344674115984760732093857982333199902180465350959469803764497604362686789558551236292310104470511821151175454347847913579953103550372842902091245542511783534858857928517942741552711711450298247448379224469089326442317895518172471479126708675125587637577521382579019958904794836436632619144478536328862795478098414426807425632814092574347013452996040267936170163516943816205191395509072283927592)
    (by decide +kernel) e448_52

theorem e448_54 : Nat.Prime 5472998565678465140134000082486748344044182486852598152524556394080349347525406849794713849402647669724933628975031331642240381198951694870727693607553670638122329411626241828473748570376899634164166188247329811123323383413807430731701971976106244658192096465033875449524058241875913526430299767030307614062085605572507535202670677969340154857547559969340735774937578909061140628054969286397629996734762908508861790212272371466483161291806619520131189388451936905930129633636943820456596986355633178312227195275837074749126290824955134027094616749451065975527022856933433920436722962416787389039063901638225240179564295238033462999781428971872968629746853110634977226818704836814180573133333843433959794208662812454511422436207448147003915584468701921881685807638195358301392027245328339578193476037184642313922208648981 :=
  prime_of_ecCheck (a := 977342192444429986493338954409607543923565816803126821089724616838765553618196162538857779426579683326482070163801174806380867299783642853016504343171068675838650534765696239123115803771673445966243328174866461078860861910583566526549297212500283985266227616347643023833371295272317059593864458318531109613539183236323000688813556406166717503690949880407110354639335564659152211235738745906291307253524395638856356811407892646489443671983676449521227695110304071215732138156082467843200206995731539588091652138039715933017208295390465457603200653351486695423658749100610471728040905999914811687861728248927069805974861051382804900558849195104420746412323999123894075516097195423029581228585645571888313099598986058633527723172252746659815574660085975870289631845829964634198171069948699140339574404495018452205934163990)
    (x := 5181652239316435347072528124170708513202063065932838230922719547055755202287516974835317287183869587823434302226646156105611434560731627107333491890169079177286008128825829572538706977527088658939362188719989872874565432981044988997491970498485114560591277274592134793478449778896614603219670923501800875885402601257636274477134829998888948965789492179732191758695764264058302657331313565801752596759016612387608858718809275266728035447744601205852419543687843156069886489097866577149403395717764929469307729975748560456850626512285915182731081626862341192786747308601158425989517987961586634533525626740776973135156545500821416601698749454738506467010390176884454315093094858939267577563535373907342107211992440512481035770121172665114348948033047334546546728535888310568020665014113585059406470959466642694106831740153)
    (y := 1897234914996378350081327889159349141519510062506803516599206679663927173140839949617758418876702325664853666826624106240693465470694676231260729766056300230533608540137556077844343738237483206238277430630047154630053609364571364995114764458749541060739479101174444070573231482995833740368274121687055603898761297840651333531363285628607635753516086361333504328399860971572683999790556527370204231210431742489060656326420315229123642104848419110220952861812335715677931728524032856154713675110707222039738205568747961587126239310572113949711558050770066535219218084777025516599941785912071513754616000947566628137331701217903629445239200601406925438365171570269781431636606177900142451470302009282163776365969608256089475311337943986426235316704243822842001607620350227078565951726336911215175039229741359439246941814204)
    (by decide +kernel) e448_53

theorem e448_55 : Nat.Prime 230899308524600672295524372078163575858810176351663447583251980424773555289699617295161438803415929036376573254084534770617267332336431878305415094045100856194178643543550015080245562150635555006156264280361199329122590617018221904590227725768569552706606205816987926453065772979658572745837927341497391567257547220193916991945606157200852500858621503714176089280832538065581144366136969590995922969088193458469251334677821567701079997051618291114954194793602645139422514340740433841542214594294708417031990628023565928150772908289737037443856478428351058693029655681844174999092976172099059702635286054493331780630533048805873691082090108443492220099906763469835500648196146938704178654423531543867751507902927520165061235031437572440297654086655508925481211230382637180454761972789424542219793822960712455172558676785385315148523015869 :=
  prime_of_ecCheck (a := 172829588522540051253580440210874577739910337369728693095059921541616870486898745736856220102557306054595040671576174171135072222530197300736071656295206458497457032004995454613433895623097654080206953160116023957249372101560453462151515976547262392350385880297647975579870181090223277800041194174294214788335916369168700744543637431020020173354542229822834052892573052938806103100651429657605540087183164214901845142441160852685605573948083868971164951570024790661054035768091672679012066762512505525330298203318136920520035523749144949358604963571115377417661144815696542481828761041815217202495321415387888569902615710440864587069229565070647241550190928553606453552017511200536738685515335669737120502533972527825158508018177345833308863216410944309866399648440665127692624047666696401806704560757234041291768429357479367790071806440)
    (x := 48998388213407315946018858152925342145350757253243649864042818753475879400018573708914507224558512633603231772122798095715097487640853734433149616335102415338149589395101111406171607857441127949114457914102022259830891824672409132901387403598502465461326735057279150263671920107495712246164873731733642241037839286678755162500282675627208137967258614768093704158199837380454582454034673101520734821083535986179272205315319396998137818714923090976518525907350275593289910874170239277785813824569807731462515842746911890745409723814465986689269091667915239251183610813693512256387344212413867862420431615855368621219915721309408285831087820535008703330791943886727054660036083198759874847862379735864754743638760096751690466241608679090326258499840373718726531816293161706333631836012508697287219594842028250005506524943016052214221055438)
    (y := 218184420872605564349336680843403135091832750272117164195492903247074536466516290208545319590510032838180432909287774469442027583033484294452766946747085012983416282912394680291960730567510909390824401236842598249856334918568325655593615779509541714219071899901411140324953920307761208992558350054502751423806719040505398733148554465432086090325515846899826741366747946007960214232240546834212143629106358909669393949073905983233487519936223277961804492216596634876008875038305567566404742867912220426614479211851488037760069916256916389725771522452729737798827285301288484634163338108425821712469286549879924114335206452041784728885840005784350712586630811679226767505955636778544882350731574912774361184485775505238476013975141066002273364780262974226711553327143424772660171012330274793937858413397434975067431900725740366526697665767)
    (by decide +kernel) e448_54

theorem e448_56 : Nat.Prime 4583120374904798744393863261379468817221523190404167771079968559451330298945247703691659398809002775443038602520323930661982139279545836352484184201701206894598251895695924249327794163127965131317195689700889445483754301157194686584211430128780337051673426579261393352166902527873243010432137019801381725218495054773629058373128336614279721289542778227222681196135245048063720134523452709411678075013431551957156169742022256892944989196615824219603860853520169741777061299436279597056884165410452217680945509972799967281645250479518185724283923221455383980678569908985984785738332323350324845128347435794669166443398379507355836669127034033279934561662001855749854776095955994687945351605986710459912801723590631967504456615319291805222874918974264856859679625402947221709826851363777336693061197425774852111130042787588951050693339613950483 :=
  prime_of_ecCheck (a := 3608790159088504822668454349966225507539225398145364822453196410915232006966812971503480081639597554249045050610094827857172825793938785645048591526990806588968345648930267062632483402194025864059896282947305886658541901183579535970233832820752887828454909304708921706279869942183043114570792797565896486622256917517823757963601864972665095533148773056979754416151104699475055075245127954253824685868491897348486045330670273660565408745910139520589397246446271485593700136512001782709695620893290113225897200020188960140532460967973607799079963532125106711663614768280162849731877429154074752468207750485507544001313803508665213529008128962606144623148976105205055799918710685651325399907006281315843703317633565144156919878413116880967093476312114902265146667742282000050340462737560285937462037304023888849507806230501719486696143286422231)
    (x := 3240164580115755742050850787036098543806368309974851930178858208921236687228384153025419562219179116188029668628678606647427297108261099421638430198909189767385648816458388467329836100946673825719196768780344764809222536266928682753088160035669018130821848127347402695704875583270932261595938452181205048894551515253741259567667777002476194094861122505335780021302137975227187633265639016504854928566708381963306963598467962719533071905223664893406728154964479746974825021423513662267206517039084676087951835946610235783415264070671054459648792657305872406571504216205534529519120173401679438338957490791598189076763688255284928507371893036933376189324633816999630254671294855660265377285394663937886470688279317743290861837981060511727940353231871121880927260911495304551374563867379098691176328611660110369952987508307662816983035695577052)
    (y := 4308545704237050870909052667112668185440383094057056012381902879363395220964174825811409159493411499063694391030170934786873778030476464901211127989950669153957276960491876786427704578507245425821036086784615613709635289419402712063845984426439981718007922129783578748791818156633176430908579313605151413619722626904552476599224159161140596726266020452334780904764995868174080649075667390413242194516064627077449890009740741695016959010838516090642386722922129137411570155432407617318537410252362492816809366355093836492028629380172647059547373986418739601092439838482927508861257319948408270613168561592876379339302337388837948773317591915737598228871988982393305023417884443843608142252371092313065100094954018764338245348320217014651334762728182795468700179763040051902265664227112175550007032060457102538287489131502800483436702667010819)
    (by decide +kernel) e448_55

theorem e448_57 : Nat.Prime 7158834025601295638743214414274730292500019223411310058426910889862977926952476913166371980939662335242026297136745979694016101554650596382580295723057285169362469461077033677450014482805881535117459667312789313845624218407538100444538253861154886474713892316806296416084701748538005582294998024929758254791289275556408589178826461791504924654265819590921828028363252765075530850125633132101041153170980084157077937137038934020154503053570609174411907346290658252652889530312830419582516236885605246275891041562782441248094182341654809909833091338104366773776604005348589522988085885376923819880103345354276991377764754859182022138768162612728567965415884473499169078322747306279416055629130241290457359000995695292248713677965444768057329731250068357237433061882350252849932439171537517725330176208121858680176733365874244877856595330678017483 :=
  prime_of_ecCheck (a := 5476420912738707324892335989493254669038324226471563497216431122728595218003431009114408773851868623535074406772097561224728098760789082099208107756417836686515070780192775660124106156825745081065539186735714091421956126370377611434245924078445824508966851041612406287933263164018356533070028426833669266093846889945263946284366034484571052002897033566514142035704881777973480667768601386310192039024235341922989982841844815795296123961442430218763485346219631015418069463442644182656804760428562602023650598306655993696830648571373730321891506405898130592944173039123531239013033930648084775977980865650562478633040752966347268471146761122238242799401695362921692735957164787670090578422449800709646714882172937038205136091828655940986969190007293907838270904329930950428548327115765258865851594390964104332185156166058227785573553884045346322)
    (x := 58736703380206760028706536220133622913643454070488714390346668204123904516466053361937359420438128998585181181586370349528771254954200615732895844222605010278902406566028578879269890450591907225303409212112893479051791489348993687138349832815591267869728134915773079515936765592162977927539135191014339411087233464904378721805162144032518144327200387132861786117650241875469316932403451126756352235345243304081866256089227993941998471568565501730927677528220630450655396841028603263170280452447836538907957339788066756798166501305756828477198937315280723244643888689824597832727734791868169436998438696017419276897915394987041302129167002349458806100399264555904333081462176413708645623242404030317719493176099655549693240603638908427651490378718245913562697261168615346260467444859766055996460617484427611378244362015656233709449380093613815)
    (y := 6273411848907387973611654284024219385504679597556545370740184035908204628772929762587056496040282740191444739458514216958823716282995640869987644691659944780291867417812433394421497188167997415687255614450127472242734182386186735400207768650092938025599443643068495494596702682182385759254250446415986289093533891977862931709631955785393053598521398918831788212074452313449109697920772444196671459662135120935438567474186933151525665913317663641208921774860784558119397474516914004373778860015005379690933070859119621940492745708891654248586350707494625127560867731087511026486320801901022631383149969262675934316198857136243757216185441768015174154218832051210652389126130325310944800486864231496776416635001195664245433515189372991220980957098633636331239014140106787270260001868944924343604774696275397834584032536945747911032217310932298891)
    (by decide +kernel) e448_56

theorem e448_58 : Nat.Prime 36015598190590841315186354918158693090846459331650964330256382272760053600098602329398919185849529251347944779121734521361025318142317881519058395801740605631720894491493560080206657384793368799044343491463923623420615750257454150877787568234160825711467899460526184532457542134790409336411527641038399244517282519794223677525423760467623443470549482528326127928573592335661497636017503986752141251897096793997550719146828514282231004004564159117801253700863539953796890245892003568137243480456581078024169319407533658808456573645226416186033751982136135770041385387392806112793990711943101988718643006774572921412116610293413009005553439909682897499770816368211270837979919791689223836023043612050507185170380372756759364753711337491031063289082288676520411440607936798042033175350955536308858640460381779242073653004562357416328437504038031972699750507 :=
  prime_of_ecCheck (a := 16750850900583379515077783082864879277544672430415758954536752131372100967943107247710457177907815295811728155162231093521458068825107972884275576150238278139450593970167430855605173366332064818182901848638096194342101261060749856526405336558713743754119268521024990249476390514716415952001452472690511240240008898961833947526728644844369101503087355395192450157440156595696792659813951245855376191577583516125442510260681498353408256874699683590017768893233470814609946399194095490031677907173061408075091644583479360218720849081697390178315524451474697769257072438405108496648202558631769962377339589094595049794016242125002609443827323359086437404579355317259319363256580203036508633771525056020755198003309404778958098674888761359174224604583386013594403915948934589943548941536821513499184106480650270303104180031386805140071922859950331241786381812)
    (x := 270353861378480894507841956163731522622620569646237382262701284682413855444722390960903159123245160695167093795950359148411900207641268262742701441381560321314028988709262765816857821039898893503567552948141234050432747865539931745465645243947660948313991212900013668978746811822276301752093934039751194228271971646530737434860378312137336921662995492339516500755808083862602548695635184168647329310487590936620442691599776365750237858616773619649999355017127554451592632977248467583416714291519188175797763706181474741220090027994790519724797854493847598825470285833109197720532733320187987489491193824152495444078753830971335808150683954297899852079793154224817657864071669036495836119352571563620604586725845270356726970738004594626222698484596808486416527838418007040897748182208444370621497957148432720995721885504047254248894516699293361651237499)
    (y := 10954730766020848991832111826403797091788344685227713392256948350719032924487950322039193870083639058853775050949972764627542003368742616411081069327833201095449620519398717979278004539533021511429935215657457730910650203505409762086150485908838111433554206338931348245337554581420443361826941329659808914766525300410258962639912058623318519070233362455573006935667095958553794497188803305414780556456106303058264391345135759239970479929419892613545222013754042939106035044247092503889679020118899451507143750442449566538672304033388050999501935260504340159263302117984389635115383594337113258141983083485014914391441791482382264063952647478625810314105015253024329151517507544162156678359004030170785549771313402810446864180772740771114553112318363218171352231605526434437139848845840340786212831292644690057092553786747932288731842838620240652041647492)
    (by decide +kernel) e448_57

theorem e448_59 : Nat.Prime 20658153002999719764527291000991720687313131622740369371352583304100879344476891773936746204677852196944389273728333654962356054530044801637046618197624452193286789890991634914080658253503234660679547058864347378780287019068473244619636443699222012387372296628796408116253993271242707278298798991515711591759719709797145203001349224161712924845753803633613965716671976647771622792223071375622691145565429516084013215777130603418093968531313287262718943161464077786134868963080431635687542376646217142081911013759213077402245480985463499767316295427050994020620483923234452710806370116069190752804612596084245442949667997476392005833125067283425663465687988190279994568875487040580895922183582981211101394037174721277043311911487523620692852816124509260543179548802639525120301954333454725445301596938424983641705724297329156214181051910426467485408827925901423616031 :=
  prime_of_ecCheck (a := 15474511600794716070891439619749820857099879566596767338108498726116505466456938984842851359218484181676373117952055101768226725442058189070617623850338823833757971149941456009244864425753774843343150997689704252495944359332519823236823966333308226850016703932785865535169687704347058457046744754294688372658562209453891553539744023358436254459534716724638987120111484697863794116949386748849353075263897409617028892771032669225685709682491918998726273710931146108422928357093130656806789823303212881605021614266240672616921843886585734826589576009598780183548864451808561769945309658371353500477086174737189076357484313032371848145398532898619677831108557974917353751724313859799256925954894154690843673986338421457085019731820104822874573587798463222682204777412259490033240122089309293408902631960502933658225096871947830229595791309959715701584673859021947574822)
    (x := 4150923311768352677993841625209610944858011894157625377020786192102563825226712217732202345044850260062534768246307405935598124001240376982056798018308987257749531261513467310238685108229176022063972882089275774051834331825828288740136130806525182754479433260017731361596833081888401023960793418063418771622009514120894106349334541484076449595618340773092573765414386188033043587562718889830935136319561346808054537768986981647591908964812398727693819027911975377084041386153682366868162207999137550017907447159087492415671573830326929457837429047415955059412876022911438500407285445640984638915259062434762030260174049067294320252662615856711581560578610801244285627999856529131430803627139577982888738214236276300174690389387354046591030689964512425086205755570018675289786381363574306414078842620477256446956708520637761935929181695128908530388156003968579760808)
    (y := 2153099270886182203188072364412469881430165170167267850907880471722251549079232277529847927696931593132563534103138997836987711328835114889129799884537517533055722378649322566967217038987501617358116187294113476188999300984647647392095502358682438857887779093902600909993235751383194038122540215477927041907022271579464790979331762304779777309706167197370559619065234291656621384626807590661994083797281285056400118945481716212288380005771892941292824540688253716946975238781868717098162436082214622773652935167368810892558557420177417786359191927131731526793452143494756743105844862515370152615054396511161064949672140694970290182671765898055442683059637008698879216791923547448552315719222594275815128321055087729221008958667421223309250771343547566566154711079908424534836397938062104749874811125817981440792509520151778812894014840800755115116245312802442828229)
    (by decide +kernel) e448_58

theorem e448_60 : Nat.Prime 12074751743651449105534462707079351685161525378866402190971879115714210548256637649280813200896940092979316061441575447019785042145581031729825007090874302856350238366477007070452569740566337056767668152801881752280097982537395206708767532423160165531351873100507894811689748108893391452520850001376340244015560513224530049081251129527018516536304040421136547527645017433049204108230832537127305822730313590345909461972957264221506869509254304941341988178005568474433516316466476149645043833126736262903487595782199744811571211636254500346321992702567808866863589895128131947300710586000768902880734637461254558828515909899555373256995070947486884930504514267588339741365675491135700614008896059964614911776522719958368374271679688545397670401473425973687451389447175099615477024911063356398594805078168082857288098941705317640310123966519220314767685681629585880645290433517 :=
  prime_of_ecCheck (a := 1634581286294597879181224988490083721439110691411464346816472516074814030344947329915412587863227710350050698344573834819867936302287793149514258505383120325516695794794342647453258695140188682599533461737984474839875732972716469802283999213271396194541689983961432806534958858288851280792870669440960234647870678258069724615841582916731623913627003541004548522616148039317465440338080783266579665649198906183287752142492647467658178223767123776260962822575196625576340960824960892176324473962413886792083897047254854972906532111493150971070907196202648368711745856014233107529672121672261223727074563812432011086059213404174521504187047452979626303701049086463474704557720992802946384076681302074696390896109578081282229480746593853006437586734898274641786875751474939970772318405450680956914558115273363455652099176990579220650536990180138413909641539729718662084808117922)
    (x := 2023736263895943352239376610440255508581730107894618651312242378449723983990171106006322351944521616964572861933181554132937315307610712473585884371197052452199001904037382460493144483180856508700030186245465514009026750538908941875017216937650791570492883374789801437653538006546149924928962580122671964897293590340194194786330918010685903653312095813410006285079850526564631851832246335757269459834931485947740280109447040692314598509896836196878027744371968342963397540083579593865678054329049697324695287972077999423186345602590448167201875558700976226782536946671489651367183655763228129028613218334279147888861761886166497775729006135845743447241688800582041224978964220373974909809614190275186520677539720736604835329240649603533823168103636894047094244274530677015993220607553998566443040017255109442057292878340080178878290131014280658914703053154257067849646188722)
    (y := 11894847980932397452700406870026646088659194073063513952076839798188501838677692379862318917625043465659368563163846575839334776090847767286099864979046575021051224572876828687691481798887928810457693724004767810833020694384120220724790728661763273355008133928083936180869419423093927292591641109476609178061667920774034864221309567992131919488102363530375134887646157854430205087452169068115947182257213218209518303880946530789183640782179423952566277577972329250363516240339823687699406594404034372604249877739971558162679681715184297535917739719419609459072445089746530922466558607611826539096985383469250816524394036382366140554203594501983126205964820063352835051819587010456790704122982785996738179501111774637824952773584231455382144534998834849730500626027848062209521780861476112668590653087259554968397758279071984460125462409019233498484905574075668769846876194314)
    (by decide +kernel) e448_59

theorem e448_61 : Nat.Prime 2005593006904534057630050733119992083275320948872043496930209577610402371384803857039597045847688320760088601792499995412869853100511026138622661068679451181305316334632939559317515809981367723327314922160837971634307177486152783919509190206584947802480208948441711143759597996147432305498887488495038326950871913410706363495830488245319149656746116608315564924801072816790267496528102642828192845804211073819845869481750241255741534287309348475759796225559755910455258443825042769368466334505967898766468612310060881336158347933739541643794888059622778491546693557957101040845769247597630673757355524683962649981556944314088049365684214034006271182544092519149732296508867730119616718692399913079242388622994672261535011241946408006569855683810737336975558435517969117353916085060795116281570009188684761250589089179516781403748646885132589039480319521014237050273371175427059007945292243 :=
  prime_of_ecCheck (a := 1442667618533656730420801488977065163711480217379716489780307420793072668978147736133125810947819848061203042111591329087609379695838476164797985666368857062468525161874179230956916187526823525558835132469644613900643757287681254273520345725915371589379621013233964058674505868446345210881945654312789042914337498907015390493563940506083864674790964770121178161058803480851912350846147476935059673878090554867492137616360113381015179010419269728899416802531330562551054470769044844900708877064564027221067978166663768300073085704960107909726656106360370040681564286600134889215169140961390799745774435089195859366706248210927408429060813513175759371862382344359326862708882185402339166817543759404950465128554002836881004283336853150450049332000258843027158580098857095684540933577226510931524847537988353454962218689404951164899790250596169610583620423162699550119473170781550945112346316)
    (x := 1543076839372585564223782411479807733329514532226101837401002529848589294870228218223877313387429347350226792084080145099659250756056349979608109882437580255655034549990685195784533566867288431392271805857252042570983919279731732899148803159036469405303535375331549635791293658863100688235810912447391032066471829091321753280433290868252310886248878894099870231435613465900814751281997485964039086996134906460704509791582228659178381955555051763572511958286124469877045694791879411862879869115383022593237995540017836337951908851954534945151905107090801962903470032879290152826595737625874588852545301510860090291245895856058895598255844863928887307654410978759888768369062755424700622600895358599490093795971048409887784642552372818182876525828159090819260758458395261943693188650445642795878113292264107470758907872643599710708700700139296230813970059383162145629038349186407595475551015)
    (y := 687509407707221367810420312671779353751445864829913107876553241759538792401934836488100098777789160094970797803245756735360428768310861567963902718225716284517009494315850662806712273209797665377774763993795849640467220617231804415343575871880862693827080007219755625991511885716984176098987751292476777496097767290144759572995668595530541055694743241084452543812077861890254053131566549784558467414327217881550660016665648825388930622273587692059733431674026798711207165593161227319103730637259766318144493041591737290161680545072841922208607338167095158539237183722830532509593186813035046310180454261313981436864819543367180047912956696055535396666434063961984422413132604427160461986561435113488573776552405183630827142451147374690393225138836649821313940707232822915229050262648765415427166447002818586811173768890618391694978472671066869238872422245505834386696476578477360959309109)
    (by decide +kernel) e448_60

theorem e448_62 : Nat.Prime 1593452748818628189073764202318727033817932086634973227777819771726725102498040564289929165589781327493935238474498955755655270198436594139589028925792921419287384636782671392252152359015215866615206687204458865258503624339740302158146163641710528832155085423624215469551704878589402031978564938770667187979204463518287590754959359978643837566393733508938681452241712264040971745472700365578214773035368537095933471394265397578719787353211034474548390977629705032629373551653044751968534764799627870590960774125240578311165223777501710354118595618856509575227038727517306899862984133485010192516676584708973414879719678260822499909934798694094874820366427053401632699577353770438219846455009675701302667353706509195220197806490698519057538178290416479999087606590736908547545519000002583591831651914853214873184676267880555684232887176989957194283147830968866883096213937469946297798315823050052607432441810967 :=
  prime_of_ecCheck (a := 667612951110358699034346550955261405768262676423113039242959603313418910958404007447652582481665600140689310968053426451092775034998109914258325106156107307784368735074202899547612390869926369748872259227420601596925889038100484581038561973773513902365813718539342688630941107988161970640427995971363636479869937810935067150842608651956450507937921221631534408792765438282262023475658926247591753969016981301270239563387798725254699442967616055879225673174928712333434882417527811667728568777818245217359069817653437360569746801214369659615787266728316555873558357037543087029263571736747444035555818260550992381747065618471193044261806795943023804576892238675662723906816716277965774122172187271433848586831586478441743966049663529016657368723347245571833774942870169634785167325982962382893038582143476099054024094322577946739510419348497256357416816137439610334178953168871652803581815814511107458654613780)
    (x := 975937360606040882639445106291192712647676742050381092244618227104908098967871243027709237259569698431093618742089229466041501892555621032067248615141896295618949759718436642748592681437206411254945853886050861128836848377147453896355550589894835573001623967377037164120136378432594068626144452965531151742816874954326923102520701412521685097418688171549113639790692768161226214811650265873457058562230974786096650951814501291534200619637874112708318793372534381429051180782417298531528408008037106423352919688864083034143167473191080163518852727453282121536475260793504968846408567759708256203771354478901746344827172301686760275886278932091944347879077577950176067715654038351885572506404517562381425480928183923031298582024271566571504454310537153084467749626714366830332609429105606459490514971883898078063004776385361188210283999573123191204962869514395016806456735630543045677020379216099187265477457121)
    (y := 1358163937492487396914835330533401875486598722875952850709346198967359391175191940715776049706563694121355868064262572807492271617292463254747553157390081519512424682179802994948950261596666937954339795265914864617222594888262265558436415839937685725467795653121597347982161792336271837145571102080276572836553730334270029059118035565763890169358464460988128907848025440881413634046523691146284261181088354771949056719819253612499214891988841461608029768256840327221369087194380018061303399768277869569739738340796941591812711137275242169252015197134110562137189759790763880793057285528274628761428792778789394742163699013145915322453466412337206563840842228108945071582135608775795294918172247134680011883410450385515328035703874417013018906566532032763423258536876651964340825733357225790620346746003457019376318342648748692405248708728035034362049610048401202510849581940285901688274796254581531620375384724)
    (by decide +kernel) e448_61

theorem e448_63 : Nat.Prime 1239333171456075569774621654360101760343558540052225758104190300349336610228853205270450511162956165236982097945452345509883507424248461272997333222869641596478294588488831600232463500142783506811859517379427253239287172575269413380794939342688175953853828150204833615864417602637855037128586540847289389792435441372206526525172877203229905638184092737096513901049046050540057425467852088446760093887779816201888655320748296930035876790584114287752294538558270755773605391685587383535319546922659149683637671575302501057714064864614501420084403795771099081485618410976946582185550885836635054220911915275433496766045559220444846490639928312053784873759247395234784038925257792551479178529133072247802863997399093792563322317836617567442674400761835885418677191406024772047573301620374104994393833920155799558826231246053280217694438124966338942409776281955325962042053512046258226916674022475767738397859023479706187139 :=
  prime_of_ecCheck (a := 464468800454977998971188787393300681733204621900680575389068627683520743127088573411160586427797968473626759708569864102382515661077144028070480363219005619505504333995079752892081364741964190920760319012187422966770570476808980354999793024636163756040326762781974923243277114340837737179260519413752638753415478480728106959093875732743238174400685139893042289332936430130460165307494182364067149994914854986004585102738519791214093902592967984234548674916537524887174607695603044214911176768282767360067275283080726545691202746027390471360817136025909897311735379047044501671759944364320540693056466118810420845937805554194403463371611031856638514406013714154191390275441748050642065661736679053241029165955985559707391317005330674202292036303524136102111675318000320473955131395438110998569264208182665772669126919219800014526896583360720814879717927312749093179210549372295084506087274186658731886591665366344360550)
    (x := 1095711567741825183388577754039350430567337436695921654936831818443218115532704897527672758322649253199400322936063669103225960851016115030650727233137738636638440033538874622252334782493348404502396198824359002001806554130323618606369432786614415504056833832030071240627404871742550668307777716760076578814519331363097332595842803477714719480100490794159600379252628218345823955268267584876229598752117781035468401139358393011026874734228010972165242602955676388570040584061092683514692640739379929678858669338638557719177988393639749607794550647153571783930675032779639338096496835461948503944495861053101175978526881421572194375070702208911615697350695440611861301321789489573576243755790128405673687416750554715487773778366276894627552336839422738774681986873670927137818879049275048237679813994400094525963608671645485509076387629915495542526906836989730296065733833200935164128232531001369390556705334305523892368)
    (y := 355855189161085245605057050402877877806380836330324262506752596266582381103851434146912275862247973975311448686711625465982146429720025010422284502682071179165899650268181268468714511936163987918782129250778653307803994453607491297290851673063262856282227439275327488185536114009266111397986579633153810756178346873584235072629966640708157952458414297179655646153556782254657741714523407335658710354421980759453597392334013585118262752116410384454160276019676984490251940208096120528479563022026243271517859333531191721069507628119353647528752079654322649612296741863982728340171276424159632253805225435167267101712978676607770458605210534731153432932310025272329530106002502026642116855676498733335386532273963175337095854111660064564354912034064523057631155206714050261101538639644241593531828052763683217445965997585858593613748968009237527462305037422805954265268382408899947463757771021545013869050453513464098604)
    (by decide +kernel) e448_62

theorem e448_64 : Nat.Prime 8231704954780196733513576922665439375198259760804995602162182285200627794818902526490669265704839509741014766025236508817101105193247947311165944858039343708703872724473699247846466302427120277034133884261675489525877620208515035120585736250310448519216010785152541206497778941870437756536270462166530905429593592609697811895928641820607585259784946233502011790387794001898680764300994267943028468555686670861811586178227551552051255487144249404297229174136737346177660350726388737737712649772761312647574901441886303816107595933000177901196197306815801054439995538831340661246649548273978597953490584667127163790530144167745575296160224571407649038887563498284279131857924841926031050585313369051848215961742484888600972029549502538295448156342308133783982898629055915739612375542941210465019378233082812833438218480484620417617603803981035245813082533990495574371167719903310300556377630780427552151578317761292588755072883647 :=
  prime_of_ecCheck (a := 4134096445907817864189429611179674948637431714295524037464357022539305141134303032114624355484818522499656138485655451120491742180841755068574059502386915958721592968870412403101104389322735267457386857143744511362890869984067857868866596737710911387504647110508732283837669828612830542882016094757292039791454495250308661110474681047993963664388917684074141593676516509905294918320409304021758848194230336018728617481208195699721760123557773778477533306557765092143940141171900840649612740563286178084754106383383343620140148414795416712485352759727485703091638115788509769588186207337067902635567157384271324813189888265981503511174557163201068275428099877867871600421246241714040763158885882323646006766523326169272961381393250678281619048711281083137819552518092349408909199302788503482766806642173529888096040895777257805144029865872542028432415493483783496870115573120688937552464547662545317366313284197269266453847171437)
    (x := 6247801717913653253257239888836439216426162899022567446956185140461527461378120484294063276342191482349065629259330979279926008062850707493452717594129740494737671055776267590601616548490564347145160283228309842566708030046182009180457465267802251180845063457812591948819646975359382287087122147485234549026004001232483736613737966608700235785473748785521015937927684107431822014343182904495508172763057651509321331376130401123191663731124823305639356794763205561964364062621831026924832287736217742063485995383758570130376000194588742654482768887812491961512234953029625766536143234048982439637685765500402404834933769382387983990401700541705747786877787438040255405965848334080683651638196539315580860588544708677531937901050986193852437872189092305380304443463764235421521616528600757508192103811145768040361575497732214261787520408309253863855768184805210820017930191579294277435930789579382341645651607314713100456102418885)
    (y := 1826368591883451747853177276348916796121675612760189778340073542672190710612595308416000406082382420699682960219592775480706557740004709688380744013515811711008671605955386565977282994272531889915884865444480968914715268290505362289242114475837618893692967062948078076475199558392841115674375788856503332254334079359143660253924883708654933603621766903350810290216123494782275748687993464142572562411021799006946088571688534959693973042508223183515414724308313757927623028852420371386109612225239225918376957755536532888993816825540465607241695500203593828633994270819877885495885924825811705103451935546330630193395144452353581331161228936185690839614704691780011120122339059548089097334948993439721952291719412662601356240985765991375464116807877813283686749482846024971234059960493586108823770155697974944790411851826432969263463407176327614732303475222846692970754905593844382544447049944554147876867481999090174509731065385)
    (by decide +kernel) e448_63

theorem e448_65 : Nat.Prime 16094488617260824725958061313785704879396412840515341941432780991787909400083326509821108081029611874002904323841777602040638149737119688564429582847794444901772206357997679228605686278695340618212236300204597125759966219058585867307398037329973856130513392347457628325744084558165152963426199619750229859619902248487362869011775645981161265539287049877033508365128386974254576128743980688262330612958753842624582200804938309895343146715073007500020639721303145986576670714874490585294705039795678586465562616095328146504615600693900447068408009519204430855016539986420043306599042965958620180530508702570153314873084232760052454353981513573276339512370598452915832216102520697217270977824848617116070409413498479983330574586779520376440834689741834917373295235417105502625593202000581035765567256856283264687771298834086420012647378176459448326255100326719188181158411775054285847561413988457845252142062927595113712624426527967584515117 :=
  prime_of_ecCheck (a := 12885537347215053072514739399989554590919855679926061468775485654083508417695845935257847691051202066605602601290924228156815161724108166654770052874166055998362951958982011360735141669492165169228930228383111282169307832016265534559307947290755238189850445675825239159013721608541441221539887018765673430577046773751911463933348566990778294987551857712129457767200002034131639762010491372584470529668860029587850567470154586636111294943495704827383258544707417000991987494050382241301971130644922740212307508184655443643832410766107391601238024640266237711038086871858604598259019547297983889683031889140940595946155218993527802181505601161490789381898583930139025963002236049122358594141283882617984247823314996365664048881739279628236845823626282220107365843267751261707132386622368607096323959520970763644674197879629728851335661517470101036745197449468818221265788931028105556696282891173118702536366962573255598091740373071966015689)
    (x := 464381980523995785866337668118333945202417509432295257782016801959299763699109891090744929743586891195602038556673515786611793942268737509330591097585033720942936743849153559938936373989798292200334966558271749018130999106582460796172782244859560524216746127213485724700356240340288008516783763737784668001995518582885888401612435682367184593236133039587587920022138387291057555474260015518993103922534030667596460581419543892115134583169167984394970513925813466548988660496154171847959624981033220959344945400640188107453625144808153358952608027548238148539186344237476721290273447635908524140271611918746393884224227553564202913271573994600985541579057543199496580463385576332679688688163875766100645684635386691773607974393090575769320960101631227877291821904646887855749435695342977417301945806576384317866287018488182658569211473103037391208772958290968076326846094682344390263051846004190240770065332158464720026323807564636925147)
    (y := 2724935870502666359539993435954629738488625184442748663208868170538746614069581127089930277290229512215489332881789525514046872103712828331214433695756640610989152368242924371641227016116052570605330055816135360604195091307050771724716668431990608650854808991246015099354948287084602456049150823172791798686539958458375370718166098367199757538131772169811519562343971994265925635087542690185035432739592840282135195820809852446608368024079135754505144408313869360876335694297644089283463938080763719757126586106944836273758111794732605683970039513653641878177544063367946362231990596384437615870119413255423893054336364717753979008584919543870322399543218598086264688723522716042700702021544874172009621549888112376774377166646169267357310907311994962689272677709701936701126500546780851256755842484736196591760613089497161414953705397998220855906046162658021323488105700217791357073983837605956308011358190750995313531631320973300740342)
    (by decide +kernel) e448_64

theorem e448_66 : Nat.Prime 5098070108250972306788360825564957201609287211237123809693719978467054723582061085354708516158921874399319092373874583614830747829237006404737937729259988679940509432718146699346377095385712630119773284489124500861335364030878736856486567466492597936751834123211694540588306890566550972970387360628224440020296497050633823810694400577184470984645462105927065876488508162771553238191932456494893168426460314175813482269285828067630690226773090023746407384835668206703780462829219986532182226147170148948114878156342852881066788835310377230917326218751411864564565005945494315139979252140174877741157347711327217834077156822444394237521048044231941404575573866972323721674417463261055441595891192136631683398630234940051656389707169032573544446854478723003608762435130812907801780735819551874709809925317102428605837268176560470961390165930260222751891436424987846764283160699368689425679233918656296473737104483013421293520129325514485062302813450339 :=
  prime_of_ecCheck (a := 2119709109202647597015938162855723727417587982650246264580053877669634214521097155802302112612791877785041830152339848373637390484472312104754888422263209298617075949467780027483960806463247391727097882811132115777778465459433165427964170234784958293081497352063047045334313632929878248742718906825120200180519765195509737332555527394428719370026753402099608499981638004489885186886539249183127207355259413589101224047288867759393030281861062381529012564414481840670591692329201529458610742738386863431669693480404608737003717891710622596783452405791044100106152592081613730023281135604912178696026507126865093431617136266048748967246256844909049536382919163536395093711282058905646771591807358792931377277892655021103100974982730268689803765189145773293011287481765768257461271984976765995538962119632842017068035910279072741978850186182994787260702550410265422822524133376028766172273145185457564335161818782437867229216220242538670602526565436214)
    (x := 4615734288473421131665040219397904641825186995712053553793952812999197810356096692561330429889517441030477534085752783764098291373538805975127150616206465561020001902216437388304015791511432375465839467994381360471068317853817500273869702602435414232680104342977135388111721203337512098938151178031113243380708698668172689232006567329137574054081633461644111831572610164636655478781403417332135067513539136651509145615654570439536142475564381014175423168166966864564139478667303138828478445431849845761230545509107229237154686948951463713536241092385682133965498739886554489485851296312735177127627479002217838230779732931334744321983070364594023637318338695296269164525497760162584413978498106902308144958658245154223697952026392228495802581765650904294671672612279794702731806592725836159750999777548871103919998387086925082053007100397715186096157470184248254241838738771733859441595069928396089374348164313437373348553181563271869060582188619067)
    (y := 4235667629983963398056088701028236681375190076516983729933945050171527187200981882168063574822215124775717255181668398075290820698216678817270970905555339168444772729073582485445258467907696084621246278190128123464956799879122917886064907885456197918660118896454946979716173409459644909617187027404437207843305362958188016683972527113671447045631193453299507578193909470194135476070689109504362367864429162104348783262876433222615482112396748705215986435872761961717523961907694242793837950335760994676694836539503394251315081237839137668146810152917030922696787449784607836113079354200940942791904295893294031636577905215947974582029881642855579997115024536657672014548636747576724745973301471557458651292676482003799638182961621767869823127244885609071780668723419515296186024670284301742098654445846191454304285276371022674437604022891157934545884891355074986635872665900340343121251526836956852384858153645662355716473864829280103573006202037411)
    (by decide +kernel) e448_65

theorem e448_67 : Nat.Prime 2647643839159103879846929287135072187992710770727243498192294270528521854232169245122886698699830407568135325672128996376392185868221420823143693370053094568535816310683467276289313636206348041286470623256878168225405333834006623903458664949202774924351020823975244260054471887516891331596974010051536539263959696587327824605329698109523010112808635859379574874499494299817907000226711684961705783020647272829663616840946527247113582021492990813446807214657232683542092636653233640607133708017510351598654339820604198721272767797211325849571856885080351962114050098920278910817255607223986800690125225346420545515716814303537334759872219152373465275745344972414071074347565729761947375277470923084126578342515799776525959116493635542143202499520096345958433721526954641856231260571498754743182942369219767488534105280336556172554989825557279072770237225319982504542323731340855878977650188245295834161551637961747982041475686146094116568678197367945844079614901 :=
  prime_of_ecCheck (a := 1373764171746513127509806335792368184076132132028778865979169036163958635247291650853499606470096157521366146882843088351102713156601283985536189264724307879123824661084092133041385547573186148686733220273047358589460563625413992127280082567684003983288680509250661217781326662232260560420488958018527410476053753356552615625968734162311924573089274080123086691251422859822583879943571132842542017719819219414014411217990354448409133682463311701256757908806025536769682561458496081737115689126407173951745304220017718652529323339088446265122163000372166191394008021313719355852309833788898931473167457110091394121926435733282416559145373945754090764094506990912772559827962037997168700315169722476403767336411894748889893036137957150994241811173905934323862065420976673504921045191120125022490506028686932532865180500607138444628584919661199082889118649842310021811248029879728331097326969244108127325528421598944931295097204307208817855426308886602295343811083)
    (x := 921802126358087450716864118138906424711870822809294077258428778285279779647693247483869939657801795960562847477150339484412546196763564686113781959727055745072973106396964316147132526957604113896179711883167594841512839560659638533885169371994380484073639322893626969888098534430177147760214961138736930513296777823777642752042725717481241424735392515688313214163534496157825765823809750127082680301383822645466402903887377302680164873828647452644997979317194661562439974411115188915110769991540418559778793776423951534417261846656915802379583430321680546792127083511814887089560660691737659644847555118727212807122403123236517571732532427013280331122412050578369037978801183853816551473626327366840093705278774249637726249912047575013419704781047360831399226027969009159851041757056904926009579216882946422715605684370942477540710058745708088021064276916544291474592433889630200667484533685951502992723898471286373920502533294704376794758123663633938205856649)
    (y := 2170891244000148746180767851094669094421339435784727081628050976395711332596402140720385735300186258855144535481703575877466288097103619772977439504673632678356219919713400836723183495072054334852553279096732209620943785182682459193576501623059378365347085465802563180944299169970203007627473877247562849561284724690542236769791586142629248537777983256663752779100161343742401736530740932369477073816396010068977216585342336304762055698195001316319535228734049783396847441671475803328785471586376714004169939353841705453206166627161211391054855810828434874383682089544687425613056342554955822057068960641325640051113411390701298294110556181286780843445349063721911729961815742676880101937948627827151244460941539562541213817696645722023713771459937224538816693762015436225253976917299497148093357606576976897158540727514429189306612266358745091434396429740615954595001789225219071542993662779313962570466550900375670788507304640656685744058345271028197369016438)
    (by decide +kernel) e448_66

theorem e448_68 : Nat.Prime 1115147213780555056175566709763522170001807263776482912429733910643576386101356353929110243715986792653644000245654884650799641459644743810483412352429856862681304795932771115264030044115788920594927890411733663578231625630353289055135509738881063354224603466692848907810466248434773771309621262374001924508829127345128916149095286776494317852656797317891093117381500630794218805049551504806098179718517132486238208702577086523836776759554184005499871761897217312823970768729818320917111530801531612225630248085151074237628627518584364050967376246858391751593259545233892306822911810051518828533467117395207420920620017728364525097274747209903976735744526446983959411613970127652127258064819812443107350060185813044980012693690487994678899433507791148661482412579690586365162966746736618190211658075860834217128279942703157482663973162443365885253958617081981964369843868687261779707491773546799460911108157340311515714383246563837989988271660655312424777117742537746079 :=
  prime_of_ecCheck (a := 138144671315786691714180139520255340087025788588692789030310422521470167224551119207878968671562309648786629137952728054455286867518838383257166839517605699912480268998571748869941991493249295969199777748354716834578074236122512514265305541891089957449043269174873528732562844484165840696976138573283593003026568736965048247091118652777409787053689455263784275586301056358822359405596044511440483112374519730345347022366113121363796944826099501540978029860058430423156288443213523761554136140202336653492687150629056050639029831750509710339695027546217988824072099860879716350532994339917651795056342295478015896513300317688512561694523558929939886879006092653847654217159511566628284785035136904549194763682635354299891440271443219558186572576297615459354160085114350642664631017699907057926739625747217158985094128130447242477240005962334996388657369870648558480296356205114444542379825829196545152406591531519965918954104090436288164554687142938066076311403595790585)
    (x := 915240573018931012722877339142966390715517527719682860465276231936163289663616145632764854835910089189556659438545303688800728956191986725175917978918676171271407755745068139218342608311397701628782218387972036754824864695094859642865644849269140641533352730638841122493642232366945954779618265681254533278302272791466194851335588714711313252184951528539196828163858328225629417564573655785693835696738463432137998676130947787256416291859336345123326634925764172112572806067609717749074948731263961450900473074185714276814112882684373317362835025395617896817294236833146097898886958379373221634208172346184274627019750626320820826281206673487908359469516624099911663037042083069509345632906778782884230938598501305000958196169750507622017624532137569062666519011417398780307283735091159288109715622389385601183705398250199613765580437608215802459582709620738970707216600605624168605566269099367024291197914665395474544902570644387031785451292781764716393770083156563668)
    (y := 394548076268100911983485538204445197455810763198862257277651826285523361146587348210016494331360854552056251581378340853898210254668017781554070164861163430936818917389397032703940864268689313636576530587713273145872160965814875493557579974434377987325469662390540180714870747729164858664634476334482534119904915163282946842064198647090104334422735131279290353423126951973322942254210843506959100822909994758326265357607530897183010284017643648663316669995567420441617831238208414193337824630401344678404597950892206616243115197346924938468494208991449016278142134799722984966506463437206488202817496010092061110201599479473662319794837549134419405465725537044186729517773176872253125168621678315139383976686537765171841800769330805269133927004505452310038177735744241825867391436593764069742834790694443691295322064317623380172769254617911298021418697675035474787315941858968562464719258159951489897810866134489551076260520347110113379912351330177714837752139482738569)
    (by decide +kernel) e448_67

theorem e448_69 : Nat.Prime 836543263036992695014463159507258216951353593629375794578616800240657023215106985724793363437978244959465670256179031269907274704391973072357098431733274345035058335497015361011273183652363628529427775194742948611148543940131296137663741671409293792159162005313018015529721275766139113823194992471698950347618827542212283832179777251040400486763997642311054587063327769532964965224281010091302928647484377374104285414405926772228361266973076500349284711621417958975849497298403358765435129611863822769394214832526404679484103216552346560782494112090450412808711411993204581391908415704209295714622149395359212354085483643560772083851014703323074795344412687659389410321223914826031453396202726981981839592883978479531158556040060357697719919793966413472020948356919183662139513036787819440581226900323350532041593457659738093595771196486223751444049383159053438196805936636163903301859647905009705583850780093503333074709476890475757650189611632207681617567639771705522175360630256669701 :=
  prime_of_ecCheck (a := 55323493847278793224611201290512746874592971032059025177181756211938358030509702741863846141827341571346095579083306573118676301143749771592410049137052561755843946131241288157633307594053031198152181406410470854274433328068145191176934383382976728101550271177438604910346617691378424004344961242173078298993945924737582961232371013331704420966793014125584507795080001472647334415784391121997347711859650977944622547721670039668109296481177108439797418760611743270591225669200004428970457183309050626975069368379677618722611231771565609306107768300442519621885086276014482693355383450911955804949880715580785748713786206284156453147406819876383038519774146137503701133966852819046340231967316534759986707994006979447701058267063792493602414862837404385129699343057588054712999173017292709927801598289311678617307915939830037124565660083816990194120255612325361744823634903616346408420270054968403980051007485060839815813446760994350735693716486281915480920643626418606560123373681909603)
    (x := 33102570898268619390972233404347127673279591284146040219494149023056780220580971101111725515139654726093781234563596036541645789503816009006221731645313792263316957349054602851516086375516641616123147331990192022481851736228329432822085873607994754558022387699459467330235549214891352594871148261159244144027807236608281126453426510605052229254129390570868015192191747036193522035825980879223246756932380256155655183119841727264619908994421540972653076931485295703068692770232372487808805614218648408488581482778045624882245987993721456597209291480726424304236218533841936313187415087882826814948926381388392276029702161171944318167419141862129021614837850116196806791628231375849058913394194912414932779175462940654494564157581950190100163492882801921952187814372956515589994556509310982090862538293915933152383239099054752523419726740640916823270237322302578741779342097764402075425617014998084353351686603304665864858391893441061882305734479352722779788646366533269284544144113157261)
    (y := 563617099577310823783983431454772288311186844092686202795475110835156585135048413716422164790019699237713317800832927686366350724342181438525319123181644518626004414363085602284858037560974140855256574786287295809187690609702745812196828243898463149954081597489755642101289705251500393119312383614514408193632555191637473664109505288165296189641465897410737867539401702030453854052778889897315389943491984278423327574280519831114427757556008974787841559956347223447782533340504947734446015327862655235116121356784517082240998938929435318952905530622235662517051319370859268321247683682822969345558599110264068812547706887384744612806399975514395031695966683506312856554860383864152862334890364967381788026380258864458816398678067414450887944858004253595471148089353003664337428721314362060848372896355673343839268035670218060627340507732270140659895665846448345236956744080881974091076149943923967482052751495619010789496893196865699543184395552024416390085089016556087558532372068742463)
    (by decide +kernel) e448_68

theorem e448_70 : Nat.Prime 6053206315756288355107696683878047245837495997222194228415476398943206809166657141810071401481830883493894500541938779913810102783792340776886361579921655428316371198792833528954967037140653744049116114992010396839544419563212180782688979201279808715202653268397834511442587306872570695493172442291301895347128897442136511417113454356806604720341654614925443539498691356242368948771650977313601879377691833967252527445538089309211432793852902699947052414996638608640450130971997827588881350178789509025084685310189203064929557870613215461761664362718575247607400402631947502626123391785323392103291955137325604033353436346796988781462265792310676999366132114911436635604425546084232978390971018925663897801725262003127173647505248158016426470789382565820069759530204956175655713405468700937149485824200552354152723399561405489133282041733699525243378955514077797007944960651256141859331917742145732014794473711654858237671763161417328377559308209357555515007399749498579597078157467223473673835091823 :=
  prime_of_ecCheck (a := 3091847463732270192794448461974392744712662049751447482997518187799110418433093082985299972364461060444895476950645023812309404669740621947087129750899468278881090382154724728852926351960587724138776581005456966182848479851291689421838714843218437168404601346287263669386480070352901764674790695978458743138202118280728098185233653494342656395092308720035459498862025234600608404502385816060926371461770498685824260165965929692479287156227118104717808997408288298450152433535625741118064178030985140042836335880063502709774827559890893132093348543287195347882809383523650650468729516707022903020959103954304811796114406249177268353990909601630639000537174291136127483259827370803109363690809666172107264216755923644861855990529436578659574233701497171878827201938788497365187879698119614824596048108706639605186855318957364437216134009891142246633006794823035067985915990622872124999234381238616318039130467796347123823894013056401856186894155066758361645637193765178842835066538211272231186667442312)
    (x := 1969105660264031317368965208043014838447508473024240911843979925407072164698803351080149105533967274292420934117957541010354195615066276625442489432123026966135852977973813629729774794873746755401402663745934907284043438148201539525875593598393928294624168826932713134172464074742825035020592509216969416487103582027009779216881600177027837682063096473623568231919840584730721014346288378370930064647303722499607061538901728739934843104495256980394440821406719680672368934702350018681900574321210778939218841371492783093373019605615823814472178911349311368863555302024878678805706063844081841490875451472728958971298538164503791960502461609828169652296812232256863536116644644348676772860384110605022395192296614713267787279428111941382004964202743449826230543255593649207049307014472036067985070920954180842066820640809465788131851182379257224463104948323142725553076796168554734374478017045510991313533014876846368039312340092371518159538932306959955090080268322152210236291466739394603009352422005)
    (y := 1162578209057439743295236377737661921198803737377533246261254304429987937992377883840801711454295694194993835935336026920864563592287998977909308648275307939782007300925571321622498951842675261540375846749353433019869517626822763319510973064832225173918065895918431887341862197618419858448046860693887302608473922596853018256262074925670161476503314446299118507397234519242672329539504884977512917060921268244264103900908472803671208942517715212057968389503048370340049142263000559525151334827450672411260624300035398934229359436310206641124289444108959486921485637211506221177768264996911067504923155229574333211421830247969153732477333082475402645304089362059208777509381690748936398544800695301450701371105850492214319480410664741175153643124408989132839301805833393074718805839649918473209132499834813602238709846696325611205691849150445267229560544257600955311299898352765032672752867833742909022313140734517099632961903221145861000736843319684669943505410241948770099125997995191149000233685407)
    (by decide +kernel) e448_69

theorem e448_71 : Nat.Prime 5585876386286320147432992978310435705381374446210491938171513079868854266111992435413417107179078721882495453507022770980627155643127076623918424800821291446210366910741686780838741785933780246725788107880186232206702644284918403884167171827303421030833241143927023749132926750200182757278419957053550611665245887149218923056204611373058734080987525091927209089105252657059027452123960470327133791815177165162333039465604150016367713883911420704079388020808962063628348727415260940069327436357630895408590607674614791611316344803033059167638815809684227917617271696050921370181561713849803888376622140579092268655408849357739135176448585861293698045220806425984635746572182223643538002507668903368861966159050948283329591836209599174436235329179870547184272551642367229306860291778052540159017906567015115676451905233197683129602288214978887233779372190388579353760207064215346822255915821245728261938153837510974942951737298979068827224363313858983496944029033885743327418333247626756160535331754416080848803437 :=
  prime_of_ecCheck (a := 3344752254662482047016424588000204839013142393500990607277473434822980398529860428638164652144613790956448282453463104913616792920131268551979694986967306669344456019533398525437991411721269873760016258151621183622920923703911561808070348657548840453782039223968286488178882647104867834330362820825490581331233207023700434160844725154093077021612346345026653583080539252950327986777877569291579168303618189815401097121145135272179385898817412887984409193396490803515095837980881598038809949929533511015072258447734191775752695082953589750241668556738623513732784548598415822601512961501969155473057466887940801148729681800467975721314539382137526672657111383708708653915101756098718152311208238844937583423100077964644561810606349779090046514738986155528849577337863910540864443648740488809284497394118857441007812698269680155355832042667574512138078217374553171472549911173323735210903369625159711200651258736264769623262853697339429556889272219662981340707707170967522210258591868787246697426861350247046553069)
    (x := 30970178849918881589924368868773223876978399144476434041498977268268906563581796102756170614278397281378540884131331102859033094072044598527064557500186489743556761997739239643454118613376575366626859793379362801664978987526122279689481377971173634128348114781382450652802200331184354092575780181952472431099145352292466478288570542291993666299546193526739126232995303043925413098263830103556494315915185224864007765842401351031310832166065646748917719882517788946533962037699621328612102235991706365494074022533950459014569944666823440723773177470828456686248070291982768333310971217250201978660090546985917051245697293100517876522048170164742423447593527397565043377297352780124407284733009862621153509652945019162436288450403248048350682178507158535241724124076437722128501559380908757340227312181643480204201406733858918011080477484471130183999188176117791213492530867292223372585055400449141374785719664756189909166042036520529332233847665522639011170305625400834150100344276140579010967515064825341628719)
    (y := 4946858946644556603264788103414675113618189378091707263398187343399295761008840525402364908849800548877912869412282187690250556370166072982439845326920643888701570229358938321646410894911598483160795588194032871854898341867366771701981918527804341568688450488938635407606681354163949282679943878832045297581766005228156979732891874810950059250055381610158453093895025826490920363583275956024928223587197614055085979404587760724716839648446219195532952349891201285161076006749929357013055238825960752090422694256105050057082741662265430016061856871362539082659235483671497451739514712152010529259360445041075753698520241659777544167449017537835421906259569700034856437017799719182545698960318621361472957026308216001960252100016717369245980782836001246506723432446744990704539919114032867557386816839865215037228686676699437193756184625682539888797531849734845916807208696007119967687165002152371867591887122148070942702730812617893146176378233834871937339230598173632022992312199167218656432561595158434195265069)
    (by decide +kernel) e448_70

theorem e448_72 : Nat.Prime 504248233142838692349071142138039651996187434008313528242618828745921212310461781129639989099269794381776629578985959581963174594216367460994364043619739621432302241766473549079874898499814210432430344074560171553763461104888154155431538935194334423295378344544580287881727563594070897865037526363138120816245076724734290622129702677868758042958905865098453018891709367858032526158134159577371021654739673053534128138639017830277546267728451769798654515414466623407858296321230435581938326334876056190324291292290104706357304460156019562276571881610218182104180929117050787421675897271197277703789171822957564314361005341000579113291174517920571602800325796258420666680304086854655294703211316492202700933205374375816386141894583912479745954608196290284474534536945631063631474069749306174103779864361396136493490923642891909771817570716506024124623552858941025796880050418609131723614801878510634995869360368601722203808376337100763146635852503426973437451186666059873503776134810334263864245412631602295429475909027 :=
  prime_of_ecCheck (a := 454318253375527974204730139606535848677343582836480554026337844886025181487545182834460661037968119648670463474692599626266890027040751589724829490487192215652371981408738720142772814261974019707757936459755319166476736081488473494443668004030948918295398424552769541092034965796025016491270832357363681141150470036525835079887030612382472343348068621425924514262539344140062879680795225073663075843084204700309820107485637167085855247071196051417910924065900779456905023774948112799119696558201657661366488608460595181182675087565531862235108770846719649462735871751689149636685090407353390928540650139136650426891347756187894105599502261442741232313679515416218922894290490081636424920985467797897076141667464416713867172056297998646705194582415579138476677412418277858448029702942740214828909988279558738959162331153673255294109986393892253424723456815470375911692741350323938768839180295165172344496712512288508716141769077725534153423883383524067285008029201556632650668131614288133440695731065071384026763962145)
    (x := 188966194565149252016924402476510691411235985319837252906246836145216986621911416082550311731817221986159052197373747845990225420842926879060733156896072307919899970588373185317688203731472695108883963340969021873724677219783400432903970652559554272549512413659761522708357988338807248293792755181291801518569486583400748215356204480614876612912906353381495073252688313909839320110490119325030636112688074611105646075510759290384571064567046947943916885559627948901458044744987213530155138102763967162682668064901922607430506703128901784241373970226141207046838479010839009789105975480171744860799710420291100181510777849201884313634752727013293286888253783389131145929958428549793186008384440403031610898554069359144014797235509863052499916654494305578077768815862668154848556904332717190727654219813236062746065696643529629258316556862221594367343626239094465230920147415724448376883134054414620343265840478654023502114463253444829749773741777911650944428185622712729718203799415095486366992202556263387404996356741)
    (y := 63104374827440033203162481881442980628167678655838695779394216220988682275359288449915868713520186066640999485118516113497427201653865278312892180699568544037535695711066788802435411420903005986692335142078651844403781884864206964143806940555736760051877091780203120873738000781682056751379204042168226234560104126415270345138568550066554502463526747888675326537307334699091258370100754515285120139371607669951217840117825610402413148206964957967857714125201243382485777384604255239995095443929505465474322236529449042780921398336088562391047906956918525031857288752385395067406900107542991743984833391732642855526899981179342223505063327907914718947575480688824933568158096257959064867287114023518386704522983278040181331261063442497470799321958480336451773338376290012580809244631284979287696432304290378336051963581612274055059102907484576130140256729368974622130065852025743840813085899349753848691632138014635959434521744424322683550465317027450261994387085185288708510410497135816304891135902708225838212757137)
    (by decide +kernel) e448_71

theorem e448_73 : Nat.Prime 11676845264625334036435733965774019101686475360249395083259654491824926676046024531895505362544582298791880989229993097661649672253339449464332644068373034696011569218418997051241989369908576807931585262674079050496409840562712085883933551897160632370946916133291389923073566781740613805994160247973927546260196907141779419983872261145516927761535050119182186787095648781032339899853748447580670069588565308806255265694090217375375490710219379009214742929757527305065840045906088771515196570642871057141385334243711217960222075560384540329016767096985932661199697607096166647632894866702373404053350200955183786884550932708420413289356625882085676919263260116468007539004959913219092644167332730092574921621577767059211148592676233019901861629657309692925346178247870551558165686794780503510347590495375322878093961369695291459960632198948651345340121989358348518175228824270475028508478615843106960646708982965743902272122006850731419095796372472287187602904393990853100267501233848741696682769448866298408810567358270665119643 :=
  prime_of_ecCheck (a := 8015863518130871863928728964041511501732133869615651447925033200694060072190752021210701281095820448312967098449714502052585198200366727169944137008607802538841377694718509992381506978958311320983002481586011260957283550198507844743136934013714974812724685469626379609760296493019666588583979584661035130222857861385456009049335153479505691777906426707743131654958626321014140784375971527583387950396616813612731093285745489035246836909089460136784445390940319621318860556944922247876427364582274423480343895144575642029895033358775420058290005409206355806731634738963872334068253228853144477444049960778407214013374919969452554413179830303586070686671872892063102450642109354357312949602152816482134986584995083544645109454623775651803771853576154209635208717330473290051913885774279996128683514434288438954094114593452684974484438191809348703380073479608883664807911797144904911529899713285610927428546640371463975530701717382490419820688764154698046575066260438293635879329211501057384719166846920182485204052183435355179209)
    (x := 2906414752161881961663811366920313137196496500049734988106662807662756343877090571235491280266186167802717845791884831499199446726104654851672561823547752212926155570934100623130760277686428368856030307763355853554331954419087652304454020400319624390975041319648481795137807303826793926931399812951847212649462229101487721780077379313325063266333287507114950195646032688307776552314017622357866596955519504588249677753816981442915967799407498812184699603339324711717052349569807984067176163157250165160372089754207007142735423451592795484108819527735980041711158890732502021724543827014636054466232158175299576673423109774233127640848189930744672050979149930722832039158058656831116549338205777238101709980519094185429463837592033714237512581168424051436338354424424682986302527160580148625836526196342778598777668044063068843236713651401314999052865808605306599993784956883431921130752755250655000750889453799982977019731565141289686098805941540282939608533512015946121453572829498844416411357729555724440049082904697156398097)
    (y := 1593487241187520043792971103092271044174597266262529636366087589823363226072626839131373750840818232116391403140799805580008788015117059958120965798509198354908556962502530285031241995355485289546103025585056711694145168107304672602931032812215587248891439254414878948912233408252823009145771996827186793492891947556302188924130949554657783775914439791973434386349267768897828680782315664018369437824085851191994788875840561263555336850225001806662506794876085885725080422919520047239570141320056180506990444136192309428291950940852996794933050025347379031688063520057183718897272663550394292691044539227364988573943359433335079665230567020748575296765283770316464607512848564511772693562435098440124911877674947131872666217810290473880386041096049171719870432204604756195151293505699059566972657242450565038935164914257480954873959221586853536007298879594826266144848006712964969889816941146023156074225751009512711501810191075295014052359673650016112246337301851535829686669240298219689706699283882764756833369322895186447555)
    (by decide +kernel) e448_72

theorem e448_74 : Nat.Prime 5319451960339038492592621406310190761480117513133056537845841639341331698612167691485056041414763506539007996993710334907335831384615938317652066436448568046997235022187189496870535176598011504759954931632489129098831658674930126467746070007790194401787042659651185462009674318435806591989901377308201684107596342687713390778617029784623442035659224330647925753520333604698010722573643225789409531210114646365200777985441198139834164185657362034582338903233073210361178732767499331507206036885708489065602819473270278765165706152468774478229009542212777651777463896425868781412044517575125388165754370574530720144475909592128206077307672433782178859918658705788306218424605830337426759179274322803042809680463806496814156557842715851938927035322475562946222555687453059452352101584060301061889744640738214623514355924832041446230905522697251901311408742559404270137493266605019456950840068774355991533363770503440800324456377625673280698610775902642651360011312269252020080591996010551975000300518468589958042655150925548809571082431893537408973033 :=
  prime_of_ecCheck (a := 2275442229605601542592174771992114827429273862658545876307616242891547339941813609682560570177928704792643924535449263771735643772461432406186652236735105453550727629983903943176073556335174545265958964162071483728829979868656411388525551457589315209282626322201135400125163417182008392927901935141554936288553204710747747353025000481487433446666322112186119512065340653986543626936940650102583618975310141917648494997760716013047774604681887928784608883719984671601346771317841171708197692955386044381181544048004778297071985195749013966828231281061290730616633342793246878461132845401453908034677913594796243320007993048882743080660062153752244184454527520255898349517534777504799235334750745240872799618027460759498208580230284864252541289601908692153322898671921772098445039408866926715188223041546018925312875395329866594680738111917438419670322843314704226274940567784715841218224618159783093196314835414240511588251508053439581435374698090117010353870344519474465843820396880772291780056488727514442726774578883043956163140029669124775414983)
    (x := 5227319107216110409252104554996955081610163145269274579206263573053167339619441753487640979072131566469489456140763553528804477056814940467844401691194661490754838522906769243676876426022405746047353584858323044111049335071060597070224739467025472534235730866272652812649496854241591044703548876555619731327180142049918922114124433238864337670996731552574765252723271947920787960207951242297525773388305375216765560996600074337262532135814793768120128683111259532337163551808022308408161448831951602475994703707642334864731235670549615615973202317931681694973068530453466306852904155180479355128528247127563235407653455039595701356489884327407638156691554775232221754902330198869380325344554981206308900958200064142526108786118363815226879475602553385305589617546033982898845802779274228611278836371046668709806000515168847059035610168562669071541718612389797035218430517280691330907952534298289182322420414991168576790467822481849338032158786942610432352716059832177682774285367604444666675772006372102881791535383937694002267517078805551085232446)
    (y := 4069338512903002564012663741104726658583534489976656548883548373785442131894548939012309087791625604376170716354582293861469025585961591798271601145703066415024316004059854355879776535900122580024385243902492709914357710636382654939073722138386554651629236215641769801057597851396094071568221170396009044445997553418990421581546071215958452323875383045467294903331236847259032774126180824407455533881693552605299857116581803469377106009469308842106135463668622174769295497013990521291714302469563984744847631062183638595434929401402233512830198555207576357833882878377305853787658145599825946063566317559328898001439236404269574323964771570999362617483406441607879235267565456103541026192927752721457095858954346179751164814220148746537990806470440219004123865951447584684924017373817051729321777128301380285450708531292270512407492656568812656519839382579174638806650287399442180728135442706400273894414347021597872160938108935941672213045108970244683591341054827976577027084325190974724418378956437639886013466618029660318705819015200699963975307)
    (by decide +kernel) e448_73

theorem e448_75 : Nat.Prime 2931717189819990123194813486120077010711920847349605193048708882926364581051436980410595045109293893861803754266327547653988919720927956566308963323544274895693185073597007570759707960662397340266974447399160006831697878147780880000298848776019415484611666156207115620509990319224523051831259438640090652969414253571776375885953124447766696680500163780018019488188111340477633385220074806505392012958114706303854900975829696504627318111026097956882471311661424574513456254058253152683459659523409271612206895819412684731452074362551114413860951446360097089767027040300006479137296627979575137753767109551823174200521399313666219816512807605041349119518352103531681706305311553364576132273546250655746367334515874674001359695342901261349572344573773855868801329717347604292088187784500506501238530840309028354133145574050038179888788598041580824990215565295404673553548697235528508218274909917328328011099621859239065859691698344196050658666474888377363390450358322115675000305966938688549087291305658585320086367285417330664373873450780870623281908349765582357871 :=
  prime_of_ecCheck (a := 772646660720461308519826105346072518083825067273672301545001210040774376504423878167653708672241048950085997048793155751039463612019862249190457190346082365439704477501388099469809147144104033521140542394577415263147482677359793821934273840408279370178916366956814979088543427782265454311934002409639636403888656539527634686233926339249478165023212674614490734006477780823194509286091370817279324153387637693870788049876530218012131507363673150664780652501825308544109559189680774487071651047969954821300196801244457271413966766682667115300017859706161274564562874441972380858203160796754312182045698981698033238483364902375387886437862219559043657404096217308129437516158312130824955890429531286308348604932863435663316272429547426639815870611772164371489674836620513749994408120978697755072295421428340315442154489637334248283889764493938029896313361876618351671343686439801378505762799483853114085548759953008982341556679609213292013564598580090797956206390602989621368346963094028551274604358073245398833364568850270405327947332108102753199533056319360639776)
    (x := 1649780395532385495128235597135549029035317805714217915084070290095089129203730096898215425521192140058479185779868121517609792120653399435116579422065563949333294554332147332433864572234007128908892028582508509508204745979378382954076785926616373249975886086690807701980784300632113465380968894467435119380852876912568981530696235508910782821096784959996311598291666497905923574928234432140460276695954700348931896465584891395783055175850009224592192499096055918082735619016689850707478026737802276308377171626859553989942205746671106438679208710309996351381878703740118880399054827702342039565244256010047051385133533034862424158147941133551681323870904020921988231528000664337991815856693198614724802244033808531859860454268540432105068107536989052114208735185371186819142812097392553319855472376796494756456019957488532414951065624561484596007677709277709044294492443641161123451064941765579480381100625505938346931137248899779552523332701070042980737619363295774214879345063917317295287481058928187512780557652021259371812946172081473857750889510482307145462)
    (y := 2408736461310558398505209321602240936590539471798222156088658746274877661365603624687430305817987081574575768016800668946096836764748520598673477644679795629043326539954575085507277480241993173540042692355962768644291437077197217416066032088819818197335824401930302297505350388481920781871073739724234972586639331661922771089763735695535757272456920668889917765440425470559513684342038575093011808027438385072238794168086435575909664587363236179617458317282147822268576378170892160706325226291209153895077951489418154470513242566358058480587047239399326457578883242832552872297432783256151771322152318018446696690868366726073914748081917473846595980621540663445143974577499681095498873452315772393420818696375494107222853075019928579637197409068476216409851189868025070068551005495899528508724939770760139134423160334978856484358294288504877049437287677106107907654975039327430071789536746219141270637100520102033771246885334534013610048124050422990853033316540068144606513180882842880525551631508826803846881838544300259976462659320699646595912909484069903090007)
    (by decide +kernel) e448_74

theorem prime_size_448 : Nat.Prime (2 ^ 3584 + 21) :=
  prime_of_ecCheck (a := 14319588249978964368006655953363514909496751376304270193148510463052222813441303255943884240244916681589589392413705159881478017291016800989602311529964448976966097132712941464338375655079972251457701200396335571556292282144247665150649224659362923133117697880527261447428158387535010877317105759994500887068127484381969546468025397862176669814347532930455598367547473706350757962935356966511977752899609529065358651000262595986547290100964317329373589506520689871266723382448181376623522850246176484156853496139872924577856820172951085516904925225631160836415546801208512293650179113392946897578787274529855617298160274364123937675145978209363687884278170524518440039082696292062854733488046734925300794919899670535549371212662496762075322274591216171474847903709786636670424986431362383547085869823850016492514594985893542157047791481442300965699549897526452683039639210134506317600087191189319911820759814421906134429340954761648383643633609240715970647708108664765604444198602285122420353840613667553703411672324065197381684610483384054705463952004428223503165529855759640972)
    (x := 9963811512493658631815130293514173814725347225381085929878495859596051477040644774440820550255691952367084974089172153646565822349509539437272164644172831879093465041958764358582765427782136925599300706714075332643543362726004306566993173848816968261332033178972171816419916779473605208083280767041117326606881104341361630411561980521563583212109129619986415309805031549005977241856220152531266664558773358807476026762396532229955633994973541246666798603837736838249318798955760477677291416376688011932036695194328725016011263678699160468377035280435903164706763162073175675210499123199948688308389178065586478912495865695504497620025962783960273727071622612171937596674200867702998211377702417097959432288942064223302787719098323786885589862514205734352653681634367548980660803094185227717561818824485505609366702419863078304583544377926902333112212002114448394893289744908010093077454991155044725065842763024306293638071518097163070367684448931886076207138688712773940131158104949069970923431634395856299563270543775882197023239368374213818659282269512870164172682871789701696)
    (y := 12144866975990566128044752822184810088140353276649896401953896581509374836451228874976593125494954199740738536367626119532583318384758117009013087702954362701988945115789804063004042661115028154345368510054523371301386453221566828107427076880283316650528794784078544135788129394322291972453652343178060514519712725755606461858400617015792430130250509624050260802127350733813464850707245230469381165630730494532731991454496581393620027789657355331509661025362653586744771705932137328129093120143153720179123538619730889317490524118490749621129878162163993506247110744854589139964759112685760012123539055770386577019982073358148813538838006489727024149014025899408039668085597529246203197121682263104487735393565090733880957186806328185206010351623989715524549928795327990893508593049374760152050867952248535013052944163224120618876160001815128243155199570851930902450795900678871549795974370532730833646589387339911894017870370999735306025650470238346459047745432063061514706718327744698659864587769043094763080954816527327213834099282790286199248287840160837415381031852495001474)
    (by decide +kernel) e448_75

end Aiootp.Primes
