import Verif.Lemmas.Ecpp
import Verif.Lemmas.Pocklington

/-
Generated: certificates for the prime that the permutations of 320 bytes use (aiootp/_constants/datasets.py:45-369) and for the primes that it rests on.
The arguments of `prime_of_ecCheck` are the coefficient of a curve, and the coordinates of a point and its order; those of `prime_of_check` are rows of a prime factor of the predecessor, its exponent and a base.
-/

-- one after the other, to save memory
set_option Elab.async false

namespace Aiootp.Primes

theorem e320_p557 : Nat.Prime 557 := prime_of_small (by decide +kernel)

theorem e320_p4457 : Nat.Prime 4457 :=
  prime_of_check (rows := [(557, 1, 2)]) (by decide +kernel)
    (List.forall_mem_cons.2 ⟨e320_p557, List.forall_mem_nil _⟩)

theorem e320_p14333713 : Nat.Prime 14333713 :=
  prime_of_check (rows := [(4457, 1, 2)]) (by decide +kernel)
    (List.forall_mem_cons.2 ⟨e320_p4457, List.forall_mem_nil _⟩)

theorem e320_p617 : Nat.Prime 617 := prime_of_small (by decide +kernel)

theorem e320_p67 : Nat.Prime 67 := prime_of_small (by decide +kernel)

theorem e320_p2976409 : Nat.Prime 2976409 :=
  prime_of_check (rows := [(617, 1, 2), (67, 1, 2)]) (by decide +kernel)
    (List.forall_mem_cons.2 ⟨e320_p617, List.forall_mem_cons.2 ⟨e320_p67, List.forall_mem_nil _⟩⟩)

theorem e320_p17406500889659737 : Nat.Prime 17406500889659737 :=
  prime_of_check (rows := [(14333713, 1, 2), (2976409, 1, 2)]) (by decide +kernel)
    (List.forall_mem_cons.2 ⟨e320_p14333713, List.forall_mem_cons.2 ⟨e320_p2976409, List.forall_mem_nil _⟩⟩)

theorem e320_1 : Nat.Prime 870654917906110249030409893391 :=
  prime_of_ecCheck (a := 799150045180618331595618584316)
    (x := 160161057935011933867590408941)
    (y := 661533638139459003015139060358)
    (by decide +kernel) e320_p17406500889659737

theorem e320_2 : Nat.Prime 300532294678521727422805601696805477319288763 :=
  prime_of_ecCheck (a := 10887387295916090732335399721049821697170622)
    (x := 127315631639461284708492736590047991967622681)
    (y := 186042350602071462862578525607083196196637415)
    (by decide +kernel) e320_1

theorem e320_3 : Nat.Prime 17826447679015525995132260395360803063553340862020511191702911737091 :=
  prime_of_ecCheck (a := 4211758955065280102929726795519181056774616590756478752713741316645)
    (x := 3768609114086373395133818312723118044838162768631532616657159734576)
    (y := 9651356685087483170942925110711368240289264493714493029271416116761)
    (by decide +kernel) e320_2

theorem e320_4 : Nat.Prime 8088250094394429049582282395510185250585402433448801637547031775061232065341411752107 :=
  prime_of_ecCheck (a := 515479443780481086536011775179210309290250392309289796608466269529607108307274184719)
    (x := 3625488100283602622797605792917280228097862984820208106620835381467877716454398717073)
    (y := 6359460039179546255888724944125911304612646762619855559246115898633825109366200662995)
    (by decide +kernel) e320_3

theorem e320_5 : Nat.Prime 56601342887446078401480586298078827365684483601428768165034276205274121684267117829604796058318941 :=
  prime_of_ecCheck (a := 37559276227071361612416035687758626863190309128860405970816760281955234664724832848955108318257651)
    (x := 38774869839017073796452701396666217953002187594028160098867412221036665467800079689764902703947506)
    (y := 546596441086709207485462317725590971151826847562914744348613936534599420408875107123818828995437)
    (by decide +kernel) e320_4

theorem e320_6 : Nat.Prime 6273867405830823238035081389754226338138234656576582563349302293029599166830339362683698886922418087168676315761 :=
  prime_of_ecCheck (a := 5420056709457812753413030937044277184577091289505239319972945825862782063485691696404865957711856328560151253465)
    (x := 2392593936769818771107790502470718051687998366529927265847067625660036205693683310939733665756072271924667562000)
    (y := 2377567020953779445232757543126942631796283828282671627351276096261199703568794924517080017213279441361005932568)
    (by decide +kernel) e320_5

theorem e320_7 : Nat.Prime 35911522427567426652950770827006248548334962988653224991272843753282733571973456584418074633672101190454936827788299060195263 :=
  prime_of_ecCheck (a := 11451391686827167148915968542462148993823243743233414187041726539776611525684262435996213927736829710313704044179895246128067)
    (x := 13501446644701935791288576740968562842484152414540648279461099772425955195443331558875889832876321756227754312523979040592737)
    (y := 12687996682708153628877094134007905697808797404452092839748980466551720996775395719069503494906106702824650238482767848870522)
    (by decide +kernel) e320_6

theorem e320_8 : Nat.Prime 348839977413770098533623094122713536979727655002018958879237763354514587885128220151148302313100691617809990146481593816842106277872293490369 :=
  prime_of_ecCheck (a := 31191173728343172946680312600925848628851055299234143258124230130025885582286546045914707680035796344878863869405241577882864694570755939285)
    (x := 136094683581527940366765873123400641335150936946541511575269756577935797589182446743384384250954320009652361306710472146131642673524973774462)
    (y := 173671789063552030180016479829678723815550382947045200085642635605769643846718345581406371600763704733298751688451351310248923301325588495560)
    (by decide +kernel) e320_7

theorem e320_9 : Nat.Prime 85328528480697135518452331018383472117307006662072927687816328211613179977019758485355624486232536265634055976693967799880564351086514937882808456735051199 :=
  prime_of_ecCheck (a := 4636952014409258727783965284638831014217448395756910577944285964088127724407445236116077306012091481300791261504244175240505956215964691814288281879482259)
    (x := 10383308361529331799570956344543307584796172704887178688820108324315973695664381334497973152498113782458693409458853232855496734658941744252965000844474637)
    (y := 32672439480522586822055774599150601937480263800051709090366471882233406946699829690368301128949039598636554535047401050643559080134021251465746338210015313)
    (by decide +kernel) e320_8

theorem e320_10 : Nat.Prime 8749554578637484654131826948473009592042795268040638245553935410099374251979673664785716748342563772554850684674224043458703323361032807291904933927704391008595050634446159 :=
  prime_of_ecCheck (a := 2926966860482347806715169275478609733454388102511872207409361959151553885547626635864112527010854382966472082353011097507204948162701811512968852274589199090082708995279047)
    (x := 5741456024168561492096507074303365693795958402471635351972189694098739384695055710276725350593430661346054111089686746086272592636049383023119626074484922554617393168180834)
    (y := 4455092811678213994364017255877732978000497207348847932932770724661383151640197628620745412495013205166755455427617203426884506831690791672391687217854967144956184561134310)
    (by decide +kernel) e320_9

theorem e320_11 : Nat.Prime 13619275468580346514145467608355793612582553581130435833962845396395094656809628728787156992039043963692224476064987294411489310487646659745812874767990272580984191346418580364564617707165364067 :=
  prime_of_ecCheck (a := 2786551675088633293687399195767916759974785101350014241680695950184054661739336798619591909658700768757048774001806639291453782394640073377346048150086910736772455753851090180090844864183372935)
    (x := 12194709862143333996271788076746769751440798109627784721306506027383912380633342823205646798387221267849206198152738534229715476372453845771870897140960531503635323984470807901265853484637618175)
    (y := 4187049329337063853758152009904084660002895659008615017254690003153449235468065633479109790062363084588303035119706498126825789289921110783653529515476146543735326495341237359124775659320789403)
    (by decide +kernel) e320_10

theorem e320_12 : Nat.Prime 77594999320024875073727294761095893558187883746257238483684459380003624027630435818817523082858368423827111609975846103951590665277766281727907958227677694187709034166178043435668260571379548712980863060615051 :=
  prime_of_ecCheck (a := 27970911529771174052949578814088387304833208215963396927091298546377839529481162830015014763313740465257175469015864809756213881918929855492821723863346425963628839033174404427634045957370204421702080763827421)
    (x := 66768334656943259242847902161153220605541486225749789823006977016733459224799912632630665719256284916392612887561652840660053230985316650583504925017484205768662545652237670775384674213967764478128452933522373)
    (y := 15865496075636425950524795891961942323104308859487077957839768035150548474527224355393581793505846884893589513962959575976668907191199524038915400834156611719292107923369160102172555264107276667621372866590290)
    (by decide +kernel) e320_11

theorem e320_13 : Nat.Prime 26721734966211082507594244848297664042985786798278302678269593386550032519070462738279754771631391465700349920333897689992906595273426133037662088073870205328919787926478184934134330920601608675555992853786215492625608363 :=
  prime_of_ecCheck (a := 14653106877751349904146639829195399184457328250460951593930372272444618269215920843892431764288964070097653402957833530777819055868300972192837304514590479515763789021130233132126061330076258204696262947010979218690561827)
    (x := 18685843557456085424948288581356748380910793619328613465428384180174039268253958426700182493700192504308272847208076951417050151925402632224130738187412389232896391434887559795702684117614603560114673654933386969422967557)
    (y := 25094693996139573374680219199639581473158551440850846310184049393520568429020025659696917405684834470783158619298261420381323001090741467194646640829546418352117293935398916412695107336396249597741410864435005863743274795)
    (by decide +kernel) e320_12

theorem e320_14 : Nat.Prime 137867138429778849480842893085578586856133850398803710041772820841793017527198370375193444518957334539753679519125149768912583948955609175857073465045561433036832873501696343304709750179832209264209274585042372660206459251026892717 :=
  prime_of_ecCheck (a := 26498215433002676748321809612922262755279487412133169028158074592644979595923862933207509113540901285400144621401050572950833398648523330354764323787737138783346058815005234388196975012296488550682660057204918546811464030613276838)
    (x := 106559753936412432117917099898959616456453115282214360110107037321969373124745119927609146927140314525268049739067465402508447824306712000424593854096984799767535844183058220255201173315876402359819645516242549649886822102235790483)
    (y := 82662898967467380091895637986078047472089364499143043928859761766680391943347986828289752290532447858948593438142086706467077955207503840854809671844711808200976318343579896203554441792869195392005013371303467498701241122174160927)
    (by decide +kernel) e320_13

theorem e320_15 : Nat.Prime 18432726860211907257612685822587440192775765782923867647145064054282013763072625182610247107225515309656615008830823422445084036143346223413244873392536785171149549754507187200082481089918322581376099035177453437896687106516981928767761259821 :=
  prime_of_ecCheck (a := 14914616745302221154680550790716557359626972385899031628758595204776064766068418375209692857106713173190504945605951118899179474922341518017128237785190192334810854008254386712937839419025779141995957051244404319906950768526262062947066228592)
    (x := 9152414652318194558529552279611059438958824968015904813767185806027277618178389022728510849939266843332685310194528218397419468295829005251773701247403626789084081964787808281939663089010548383030007655408882503290827420323142205754791357425)
    (y := 15149416025339398994194822987379698652155838117313648035373815486124369890214555910687709889362138452865389420406716482286297413602325868644634992071178068328188454617326999804718364628177225220848727771913219825848875911591723360030068735771)
    (by decide +kernel) e320_14

theorem e320_16 : Nat.Prime 2634805873278652572926204440926519991526352899039593818245948869855040192564524581894488959182748018750655287310949490808165570779011224514198322541024978675392060447376144938413031866296368045198381684772916907007285932664750577918133752429008569009361 :=
  prime_of_ecCheck (a := 1128035630275684676267002651376845672539172753275899119930583578810162359713296074072875276773242452265146616850569495040916728587546122425583046795979298155166668193845161645432614602100237079987302634116745818919637920787122404238426566339582263831027)
    (x := 852911348675300589007583885766822497952038725928663214640434218785534084207225111754990198197835074305880808527904096042384263648918971638532552743903302665938961534617890212885264223804569521834624677494527563917898880341046563011220607290315971068612)
    (y := 295129728813453213515932829785577721341402765252446035608893188847983100703223681517054665448954826092384035396953522536154186462468638375974304991868665803923834628483696005413598259371525085680070994290974569825114092679014692832249200806338508128252)
    (by decide +kernel) e320_15

theorem e320_17 : Nat.Prime 442182920737097646010526626943871856494406884426767027781215377432653131868358968198814154881145622751995558429430218085384317272863429065553873536463046745654333366429732959577129174326683947179099859548757583507471508853498836732866229454227247386632468582447835344197797671888453 :=
  prime_of_ecCheck (a := 143283400642887935783728685662158311792007752525710904029419809568280093246050191138075958715151931661533819125758165612244597526765339048353560658998511733953527108442493915405671980004096029095037409784724056204978560016139297794497155055485247255859693633880111743206725672909393)
    (x := 298257270207245255909225724924102383412442738433124883526224766066730009993679969879475594724161369120350062564918287373218682210265995957202928258919256994236969854650202385929960414166952557750209605515538174751080585893967602985347123529019957135336391440056947614845594048300772)
    (y := 141007579036727460216752630412571375550521717535578629873864857138489218799393342078623098794053029122389341356959309726609655918058612560357234253060618314575642725545591685484842952226982424584512093996285290581881647596635175938292336425098002168223787336327591973373108554505671)
    (by decide +kernel) e320_16

theorem e320_18 : Nat.Prime 61509094044180304513657398834869824114771427980109616458944937474097044734425925549128653253198535079246828302824129074173604484117012146442945249972620907849737466742172374620405289382053638915952018915795774106109536495792151249753913301111403775720733110377846578842281824950411838728610721370571 :=
  prime_of_ecCheck (a := 4916209251348229612397337803818310183226239929215440668253506824484774850340527367004050187011360222838881072104885120616506815688568865547735729175952287583924364503558801932379079285470289496393228219457048380231213806353242111541644258223779600103793057606102167994327949467903870756573095849591)
    (x := 23551662593479610937356617238599175610947924651300154205576151097091071657480847324634317378528700627797161293743714819184313406184440268798793889273156880900934660207695684306275197394786156859791476136580895154210949269171119693439689110944975054186166684671563787726722269334813028879690204541173)
    (y := 8854481455887658158266537198352343556253953141745881908829740279815938461024918059626378413450172556034188158885960218993392513954588929023706433111054370947662504730531625126530121007015860665349657706703920324790152575688529729859089969220271367853730450158126163979954427550031044300810768759218)
    (by decide +kernel) e320_17

theorem e320_19 : Nat.Prime 1739757894526781465543249450632291609529551680661429865806119698837328959285935968630675725151656906502700830761887485766601732010279298784972379396985763369468509049477431491495594697942449680626700181961312540040700244184676662222781312021613664959795482986588633188485815169586891056056537155332201171006359 :=
  prime_of_ecCheck (a := 1212578731289102900078894675430485232171454803835082364645345873736364667172237335374238416925970131202855419516776954213300312378753396709169005553453813364870364623166458533986253060693957099430066126935265398159280782853104415751327653848143256609517638498764432393091463165114332901694191264825598546789198)
    (x := 358375721309508312801662691179898948175640276468740809839534168403905038685229399344410964634727388443688443160435311702106325770172995592260339731092267951565127167681138724566057317984773897049480824455982308563718740051926786509082073152813254720209602400044486617577644104434091392312581694554766598539171)
    (y := 669932949067652958578714194882704660598843114835211404467853831967712460115781023242762315763991809106594678870146145937669949452893542542736645450306596979725004388049444906609359411908312798173610509565807843353819445288872834773076452293895501297751495544000969109609663148747075134312309815294178488310851)
    (by decide +kernel) e320_18

theorem e320_20 : Nat.Prime 620883917840112491495813481453257793032960111084529237136614253408590984413149671157677838930781664068342531359786153586975397060686820858867628810372396138982435594543127919899638950508689990197908676686111877795640946187070327524321529683472650475394781770012215458503619861240667669632612291262419655912472870111118229943 :=
  prime_of_ecCheck (a := 351823325605449369085725366305533364823564784456185212055958276816912814662243160988240844295505148199600120120774424662571173949654190404629414177368541832811271141917126692545543457204104170669681317666129760544555498835097848226650267822752933378097369378837928317473489780623910496460088903600447998270567801071526014289)
    (x := 387522601142442228060414946452905422687000863002648846339221993356660207640923130080615864634061678427509613828206813252151835261256982500493823090669499495115545936510000544339481239488543584032872911785635290090024256254353136459296730944645024636412261719820720607635930383967240585621135537801154326793041793287886297522)
    (y := 112165088061449141382995742656081402586344570796233906846313559029791235043197569593817127437345092062725323591662858788754210408181693293158252133094743277191219280903055324802801192043475598689181515124624088787840873742758568468520135087678579498442660341296080117572698440009372402312411934984885158404060283360238689239)
    (by decide +kernel) e320_19

theorem e320_21 : Nat.Prime 51972212639405040976356668084097159125035550182499671660062903062656180626857268555677955830731815050277906542126686286764690906013787831686726107074471241148453240835647478014786748714318522780945570186702160860386014306271286213656345108688102800637604266276755390707276137269661725235091806989218879344000394755950231447135090027881 :=
  prime_of_ecCheck (a := 20769775200438358765579710622521956143581505621814877885955193424751062346051067983916015984148345553861449329494421620854567746568645674826182358514056143403108010033851728524613756909551261913501664001808836529634723540972475608437404001408827209154557045751395520242006991096420313483736770827737524575748602706932921202839362901022)
    (x := 15801861568719483927071784791364881828294971279773556315377374694898888351217835718177987169181716313731705163794887618409599070212923616220260074539978770278432816754770486390097899748241103531066822065457613568935181129230210908633748043346207055748123035011309519174649905570302112887799863291851463177840461696781464309195291944641)
    (y := 24997028984214230665847755095647372752735495426426863930545348300849704311837758119692856039824971575184534884488015144778590826719995210559523878556419202457828929926974892354777156825704458595620385982682863053607330480863069058485267410188957838928073115292742908900717586115762761213444916653552405401019378910597622555387389287918)
    (by decide +kernel) e320_20

theorem e320_22 : Nat.Prime 31524256239333108692565613045335515767989853392875284080792487087780162972490355928268396217019886837864617393300751382539430956285216010830557434025550277986998224415534377372203300738630902826746724909987055393743397519368537648981849506409759777429444519116597724037456709329021483629056985685323116829116371011275786691225206967225220873229703 :=
  prime_of_ecCheck (a := 5522483116810898044578198840821993067402302055898179006028325183240938399241735770637111342640626482432103047581659703460954790965012141554396184170556845666077804852765651790204957743399171767179256886058627800359749188906994866546737483264956694948512429463182121499374919610202246842599316515670890132501340476784593481708341187781454085515903)
    (x := 2233293579912968299298336652570287117441573329442672230948795134182180343483962450921731573014560172671030898599287899207345514504164868361501332148177223107022814212913616877068808782088855173391430056998544123937832642414021980391221080647337497624501262012256088803797271207124893197188893709383114336276106885471512980892434256958916911612435)
    (y := 20769317464159460961950705107298289357477351271638450170267433871106254694442396678676016621627193568236042448077556506790281372645021941982141843050384917988530701230200003934499087267500358257152801636814710144069160003623337368428164103574706036796824127588240510453645922821174448290140728101260091735660106632321484233645888030920558288796588)
    (by decide +kernel) e320_21

theorem e320_23 : Nat.Prime 260162977491117322730489904587874789383008524459492296429958479716294400086019438533239925626337561487467905907681553103817297242870702314097844750492641640509898661414471740344937099344476343665384175679858161380761530743651320069366439812664137609498486479597028975960330202802525849557819920792108034812892035617012130500561308182723040602846395362388190597 :=
  prime_of_ecCheck (a := 5355249840786311045146430380703419040585046375030307039108164968673237213242926525454608937895369831214053300877033385835846190107065778968831048564372313487942959906492105879707372465092330998550327838015964160205598126320401464359360421872586969745967785029561875215162592083166509967204817290622805578153473454880939963705489947724990046183077187445876994)
    (x := 181040073959266087771732589393606515404059969194244610979305798265873968109823885740612459104109127821071325935248434158254322386156031276958390092498412632362970910111504820317037936221823550189848406407617547869135266542871431486068915015397797373773920676561236225591909137089173978597326932727458332575640108006235840023196501601552095341846070680544293690)
    (y := 182680672011647001067776581702692988924164774727933534086818723146691557793782358228450851404381275270289337363432213866016457100541622043769293834374368061989427123570467244716508601761528388856801012196510028074974097660393635445541801406163728096986873016017437839513315867669890580585674053943740084611691412421403002012189323548135038375376936324895841976)
    (by decide +kernel) e320_22

theorem e320_24 : Nat.Prime 723831660942323291991813655416581378804164792342792079550439712449722464917569108070617317672543026200581549550429012828934857609351937883858298481678537164277872432818160712662028005127634860792904186635877873943956144970917048363748599998616336958576884507137207358483313970953090681732951096367035570221218643862482472283165134957338647770829763529554829509862634584087331 :=
  prime_of_ecCheck (a := 218839846051414816753185427440924006846712553641413211569191501441356767721207973412464319688720416985732532485319114166027193229908582568299178358626994057275057336942020828162681474585822696745351173906410677359538300779707487109121894402399952116702462895954552166823374460923182192762150221886418430062614398361370552215182184009745438770018587673426451100215362635535367)
    (x := 104469343216123740818890600798355847163878935166978349497567079868458357291014260222200930060299196143183006192285529233254015536072389433498657388441504875121907636254096947254981360243609946153961463428792778599315778953988761351119327831052019133501050440743701629361405875140144619977948491417414305200289127621559755937499472753446507269307004529475796969795248966896419)
    (y := 376379552171177751902420860923686797952418430584261425065165485121988072710463562872979666395040496418382528807501775114972689976116622221537238690961796712136932377639039835839781401163650489099702718410020446399490029252308525884547609101824051086847709410309461311538825184940175456292429830326717146420078068458084025648838998645444848047185760797526365304251211878065020)
    (by decide +kernel) e320_23

theorem e320_25 : Nat.Prime 561998842016341402667214785661468338186631388260110193195669632821043764213373142588791877112107404917194316047945815863063670963959589946861377650775974620605374207222900923933846609984434665845357762364632516982420172725163835160198872386189810252313360820628080354235449144745786026819135888248673244381633607366709773249944494180671799927142735810116730487326371919004190139679735649751 :=
  prime_of_ecCheck (a := 528094878897628354925809886402187292067722374857458667290072640143433725543143505255650577496729269896101742901964773982679349209984496371560936187927377994672334947747351765964878083568699084956628568241382290838866313863373930081971385905610670674151961493401987346989463731818801536210216620088809498729417148488357479270144812532266843925159122733074817212972249355600711582526497993445)
    (x := 422380017870037402890155540300795183726917023680594657577130976385500806223018417648479590496700148434760932775355953094690019126705815497803732814053223471394942757667462537947827017482295527453738216982491654823572588923086462501873164692341208984687371387652196062238894586302671460510412477250157614881730094123382381521394440790669999237083837930313620436643740045340138841717741670084)
    (y := 30414681562482692033469485036203823776081916016243481919068020583382194161133912604472154703125889642941863615430885183793528343847305189191884740251913771425612995527052465298428151629419225167867527602851953565991515000543115416865012119287918117214245625417358560644123110544219229103783078581367391939953775658452527595809248513585449754936278699653620848914624518335678952763718053325)
    (by decide +kernel) e320_24

theorem e320_26 : Nat.Prime 12595154953306388966789548152784967376620720407624788110948168725331538354879110952433532353535754077100419730031626632482053448919980618733022687497764040458428664494533349764268038739088757427314987655282701447194949085483191239416759695758612866386721601763338312159452434759140061445829128126426744706237231034926894997882284855735166056877985783363856250461060025566911588280454796985281434684347 :=
  prime_of_ecCheck (a := 3821141275258618282937057052328655303090356565092591537264153535613675759759601797595152286896350002345492258205526192353686396915430425697624810639497926231579440217349487995070389899110990951365060075361694852074650859644233292664704873297236050332396528066001611958014037847974254368461056955919829712457938562677517815026824279094792883614970188838312402637006100065150090697383820907102629681923)
    (x := 11735082368210669683081683137934015587165438414193999434393692892900735163473246453865886495706238015254728065294908530189400080686085288835977691021715225929110642002523884991854807365191867877460905865594323184635076883469571566387466959680795506232299865467463415311577754071183112597127228617428427263743224506595421670330987851063052324631082594201872014000730205593688235019125337063489416638729)
    (y := 6817450358678644429295901411789397423004250186779072558566685253676993085086821508060982575130584661651622988551383022233284126533216819782871778840637188597467433657746502758885832975669577212880872727178022071107139510819951142064926616563697998559262183497097798747086688333199991756812997098907305197363936267927535569039310251735066558585075584629298885864761354645517545612083699521684102149706)
    (by decide +kernel) e320_25

theorem e320_27 : Nat.Prime 26752205108498669313451316179661743082178787372305276456164103908598043217417034196673391214860007955743113088885937538418447671235373053361235552611152242393454817071240947737963867768547751371037387347334218419545345928280415701078564447294021410501978133655626828724397291132250004259939883886960634213150994510194169276384585893643706956004320609530584770883292694796670887120819858658953964096291623677191 :=
  prime_of_ecCheck (a := 12181089782244399710876789925573909162461682367950112604170492248079151301744453890715404654543245289570914316082258790629613411799596616369272202363936725628143490464785173979932196828703658586973234353895113465934377853771652224896972673841439921398018541660407853690890810992449108582457040990812834408837660968576658102599474517797557625114566034641801581333311371656218664425190127288033199845053595507519)
    (x := 22712790562356451988425292411431446505884675655012507884246588832459661631345634283955540437705656361026645706708825193586602998322552089827217829706661165884157684394910713340377328854223617271176704190228064620943636764701766270945532679053703638408491299718731628359174554530612365547760355660156665290292728028103921214116607133219762987001001483011381437837655305489246327412829647357896264760599337880356)
    (y := 4926795738810512330857472149093384226242494915237976536725977620943438935419762379957271993211346858259197301762203047160365409207503320373600886908519203870495220085341321937003320325559501295793414293651030703623318160434856137220458728697170634760286042935528342558292651865235736786277649242129787613556606604157178498846138832289156225748682142919662116406199519237690667218047446881808054088598834503812)
    (by decide +kernel) e320_26

theorem e320_28 : Nat.Prime 95169958172407240671197144878853902604207004034555448085300012636054347213660156830266338238482918064820194893245862452639424232326967297498124966360392784271421670210581880972299836234361061809413630412245295553906395709694478411830435691815084303829855536272887966066176623219724326843435599563329207691850427095428211275675866092713244146241063913934976640428083592711744441811705918055435002199759249049190368303968436916691 :=
  prime_of_ecCheck (a := 40962613643035833905989161408104239629655331595618430246232640499201660388297922492469084110734732855879801661984147953286854225941267974400265166795330295075765196927826060191084792661467646165043733305531902647224165361254220850730989629786336129567131709466278122626417110429598940794452179016119310375383951305267537171380298304792524188132065828486126316115371921903049604842863030231913104723187578871667672548242908454863)
    (x := 29747297443880988517399908787591966382077894743445287552318567510017873498957909180270682595538323693716819045008098698046311240476504563329516384779410573886986850515242117267046653449974254777848993473848047251088789079377640883177777661721142421271208958632917779315394035359550718321865471262931885449511297882110792131508064166074654793481799763609041472453992806834205723492395818155916816943845898156061393554001890215451)
    (y := 64858127704959745213010830528487092521256493993687094472614894812214937023020921510227722597350400687720176582540880394330972648479123262640892329217140143288614429150581424902931174305775951732286604764251605675637219261365886413512786613581208922929415387909910420321688552455603825555424848323394333064739854229228360045051801022849035205862399824587419598349271588012004209721871327315716938218053949767400857212945825075849)
    (by decide +kernel) e320_27

theorem e320_29 : Nat.Prime 142930282411724971099957275886251552247726212903044208800174583869200019082599639614202792599007440494297089796747997711887404289199186092417000285397675883646358405549165759521022387914825424245153907239123812523618828496825514907884598898879214111650872526461993384055909081153346307726031759380499438455481765945222328184294946021383137300875011314915123070904830114942857742695039569538200240918022131835697525848583090589886800560837685532881 :=
  prime_of_ecCheck (a := 83195396202982349671243194459462088263244114597609879678857216993856372925755088283397337653118325410327112901323529580915354498060667140994333440899014852795915085232062757353017153619901933289333107301801586458671971052260718069446013737855825937042492797147765649437646445555057815715076068445252901067751972973736927943339886745501360767971661677203460850981535044453743451864525339711887712904261956648508905452518976929104233142999847602822)
    (x := 88033209888764786721752172512367184019165747316198340469494992738791222503633155108569253558845259445798956838926470484364344994809839570743151949846210033086611675183063548650452486341498516865392566408149693391489815499991240191082871831121313735628806489820340479390595314859047625414149467813053185169922187028739407336260304550234825399687047785868260358403647135096957039846336080828112328724596105164370940981404551470038291927338182849141)
    (y := 32128375977385305649117799726682228447638457880727383122035749048424208477198869422646158171272862415104261513533777643527292419525256126117362410822364581445225479409523183881898190686220372175088897319071235222563591754619131825068667685940201836773961214083889551993847484159192407608879064237131514332856491896474155945285309187054206855884351159338058796464593086021026278469340218657203443702730081374708964496987590216139609677644511427930)
    (by decide +kernel) e320_28

theorem e320_30 : Nat.Prime 65611820545919014073951221792909306178282697712829450915012495927454214722223894402920750788612825019957633062426611357703125259449915579978105455085152978482197879662896700908525138283300941027421470657519095414922294417776436448825788340042483216366151657813862835378632359546063888079412155274060495109251023462753981931878448953731512149286894170262776158831515534950505637991781641519404304274131452469967440906792453185209972204280311001425932626367 :=
  prime_of_ecCheck (a := 12029914297060647440008572649935908360036762537047702756335675201160430798666348626365665634303485340687142262059648889217373070373925308597382028938414901983378486527232429989434401334361999618892874624659547875233970981739597892270994115427432292314032174584159415747731362466243436655756415237933865089603916912413252697368615784984620256713309509589222425320021945900972026187091058652880799152521018006454004640563210773674904534983835637039820919267)
    (x := 31715378701972427349091010152046710331452988939273594508499213585139108299285439475785741480705581211511022222743294978838636219275029373969176803863024075113796058576350006076074634128509576205591050446337224972564044342256443643132763752287460462770709608449671199893343464060496977765552980940338425115562363118439816255446834792851486933234616681629573995776587599361677208623320050563712181997071635990510871086021264886333000586135172902750708206386)
    (y := 43460622506543386967023163674517448247774848089348405991546421363443975157569633131814504547039833230366770740813149399017929522210481338728918426992708850693016238359141564660618854411976412280481903706458807026470052340035991381925194270912077104787876636963631124061106709516773083715380228880063665649781807269219871057913443872652169617351954316682596175791686057778545007283987646921896501995855829465596804471564585872243930701882182342245552523551)
    (by decide +kernel) e320_29

theorem e320_31 : Nat.Prime 60891792112633467553093748620662885721396449405767179735093398631840024392378649455098147456809303294173384279944442909507280075253678474427109230049377612821516108699157945595355168999621791478682105190401323613503500732624692948247580161121681522171216462759950175113398826239381913820575585406467367187358896671089468819579210452915189686042638908614531168678500605876655901061303615007095794492866609233406593495175060849024119601472506872584927865800601644237587 :=
  prime_of_ecCheck (a := 46286864410081968550004366567662404096586779801361062873013276685060605382326244882714154693350687993059691703640178497206461913490428244091329555392217876556000127515140110814728932867683225890096455820395654011206807339625010453668722925835774231316372462565830031447182125650222897178551797459766284004980833885564828862323106026448545816542440995197678013355914890614100327105200614993789156232025330814156433429462984790381513938324418809835749719123038309858913)
    (x := 57381246193127748660080822448944873503130792101637921406883096061771977099586125996942085958169728802190355303143931070192191845242117136339922686015700868416723319541882857409790902568365313575501124868192610723644418062164389487986794990594060680647688708721732630886489526359464072480131200514535133504550419594702742707745739383378835712381134159873613493567128191725962113872733807659057992210026582766561253397406266198835615445018627462823931056943868232927030)
    (y := 41598331917554915491434933137228461714623731349415917451001359937865759624327864695866315194934270844595908260972460187027163031398680501204327974582935299554109562129447156299430270625486493591175637571765817191655205406640030862894424635079109612460416189463323679830619157795679366852610171086791776608925748424769718442846737612398609627922617705023898703062489629014813817737098595309770437889465645985279007875446282988608859653267575525530855142489850356337743)
    (by decide +kernel) e320_30

theorem e320_32 : Nat.Prime 7212050626337268170168776662288633474382066690634077414971599747353521607552210649939279710996480132830877405141854066836414787506173597095938226138419080289415934062630639668145377373761453320017497239421664871000273297432157308244556909023790802126073487357995499884190883310437015633924794632567889525959002254923494593775324604182315588031292750495393860113669914829057778428141299994100750498573019924158718639694650126505911091008801445653248784318495508020637784028183338049607 :=
  prime_of_ecCheck (a := 5497651331354849032172839744421779796882854654136076104681450548903665001526675017786173241148334410194275301866750785814512461516439683853850425396008243221481508897206349613615780912440319149124744498398002686299682029493852498105887460882101517905663932734039115953422241597604823271261962110253088734486723583817993030314453801538351579786858770714361460660842835195785119102706618157259928157628468631310568579219022071609843083263612287945952553510079564449295254057634851413044)
    (x := 3128716855123391069531511307754112523798169700119788370622948135791118681752118413727477153422991504486713898457866763478748399307231051312705663075905775853753865980261323303082148972526699665485412928345858416236752576424653226624025573021011827778907383243524792701657580219980792869195368469524838761404928905262322472244547542269261800004121186759688230896667921161087464525438637533016410268542284259825914654124754562930791284181062272477774815362769386628534599971976696838490)
    (y := 749599807049769673589979454701654278458733713556032026124180936175923862124664370563845202828158998959072029276012961219382148530981963885005543142635190093499514956583671185615254051861071445775254879587931996115916335391342774053596204042777731313398736764215015194222640719000437885195393671538538134542911562746121961628391085572537259979363301079082457060470964316350397594188358442459230360477907641125780243516377006844474864431922249425458040462178059380043211058657588100813)
    (by decide +kernel) e320_31

theorem e320_33 : Nat.Prime 18988365217679938976050598221163869253090336019033516386883657176043909641983739822840759433989215693997216386027510859605708836650922131946118704944028141318751683425007108263722106730894231957439522181908249097992402725404775774301059565214391295646879620872317223450614849612737000070528062961583513183668426958216471929029089156880515144858893931238314557426199485343557305603435026002457650814718596867932658045227973874489608877780142142023251669104337723834282098228809120529720850713741331904287 :=
  prime_of_ecCheck (a := 13212900877018093213882116864598060094961360317149266767562099004619413986543664916810211712870164391693590369139804479013778894673549294866008772257157977573938442062048231029456433708244737206925791975719309630933020981177083946781277975580874366779413336263661679047922530173874779749029363458822089035523775366776525649902241184113872182037197415711111909153169584141565553109051371786359761487057418077269370551914841935927938395717088092701637153900007429881983582659727553060101862078377864083018)
    (x := 6542385826018395942501856715421749654382244643281099271172946230231616271571172154285206780285442878596393195268738965456451677616916665702963789365910795973734254036580454165258884091086516989762490038067306968872665826258554843379503928542495583005256564955461469285756870727642377038581403431712137001751658153891168816084262134408453738819854987007453323198891412467800294185990979664279033588510652836938316587061748917193132836562650505882695818898726827876347548292419871167285317189692430292310)
    (y := 7233686043203158151513510002484420105553514964137393637058887228767571502835822719070188362003321727027364636262488546280182858190413228310815192531422590702065186884013850024199146466381044425957887978299510483270085667718287237421353545032193063768412667639579987041756015959409179193618973295693072379228141823211511213402496082173926647704594112677450127074859534552149019010978913273698338153145128392844572718174401673139598852990346102086811023341967347306863365279198379629628549598210139372202)
    (by decide +kernel) e320_32

theorem e320_34 : Nat.Prime 859166597500002147230204129682251373171535138292835344539743331834847871927232607656823781609649674633564613681236677809455379894116657747238370643042592212671645034572032170472296246126660450156979882363564180564517012457787927687779080353892047296194432395342162521389240072845985392153809868253952967917284890128899584989651644254085769270258752432901416132105219626369985666854349333124244224048045095811720086494055515338744990685651913278370881017647087970228430289513475442252908806960722112322224196810613 :=
  prime_of_ecCheck (a := 149728438882818305327980620610871111066846431004430682382647418137635684656866593252204800565551163981342693759062078265088909371218601270778118327962194076546825158051738919804079024388795595359812902527636884411836224494689530830848480580190973092744272432357667068738142518142546206439913610568909437859288451486859265825850775453425046104793480568733922713185730680365281542463490713163027930003154849820738820389849674945516001323110925436788159239782338920229939217619226181053184152824253791211097119021314)
    (x := 436535946203522847219011339630173410743324508574387223230167128358668001395204947262964495559812271530939382673961115255102503960498625510849807472762420105636860537134100329515544871121842052736711219578537496784970503745659847493942814918090627560475701241818867919055194336381860988401106087486162001314618973233042365087893574979324598406689366145518664020011425105952599919176222646882014881422132931687837342107900237749442258490478047502471660848212799804001701089344335843110537612903142238146655022252835)
    (y := 45185830974166071286809670861187984811687373105514346419806101104960885726827342294363379310809817771479132017983972273916460468619024957103893156386743826199305373997517053777074303904610799002828528232986079072053859714421696361706253531040991321205638755306835527331677768836291807071390415321272560782883792595936746081940004669368663233435949287477419917996281480397000689162527035101478185767673428395208365400273596268625722771804722847925085145700501872961906573676714356043340584066372154076645347248738)
    (by decide +kernel) e320_33

theorem e320_35 : Nat.Prime 305622691803094099930632604140544101532306884478733087672672572262689002940495565192214967485402577871456849894360451960937615464055894552861129574680159095086838396348506259942486685424106398157814217709943449657455109103756191316272464094438560846832742690537956971957033695216503286282302142888625764483541029086816559636385790352713016337286375603675942248761796801204937219103960878887973534556837905083821041455390595273661627622368918909742487134353872522276101518859656801025706136132438886973107254718116999179832648889 :=
  prime_of_ecCheck (a := 38498244376928595626965847974950451006669561064564415637531622411719150583539871015207404115861513713921828480605812323649488331752146842906216503133535531520299349125182388768592779222344998354050379942416908639451039712385681509087059872216492824086662310591355300024164474535073724352577847714144050321484464624597303298401895341364140014332571025189839654781757327698772765291965508143751063494687158171054962291753638578729052656174273826921003713215908824354885684403299974968375497714986668047479771788531529060317484324)
    (x := 181493608770564792676435052842972179365542937352159427527830403535851654374194034250833143758313754261587479792107460278362341155444532719160545734865816307285146984112230243273845149118887714281870177518009618786532284271620302967438838526664848475429150609599767199878120440644673278859292664203658010902184604088952052988818223948232667254905211025001839131789961467635416578215257754625153043178282479664343088388176561554839063292805691698396805094646261469477871121544570757095079959245835948516275148954709947015706136967)
    (y := 90651079368649822683534575427672321333349508250962266775444569101205069869888260002884507733941210309172859792488396100010140139861244742873740454670005766075901909634652796019426842853838335388025804239912734638297573737314313653035579470448247934941930188461302495965310415107313348248210897369660000335078538402691194683192774154906483988131923239341326053961800975001756378508281178741502970862377253533860293124753606466466350908577730339989608312014789745946451961463971568030826393318464198326310346331089287140580442252)
    (by decide +kernel) e320_34

theorem e320_36 : Nat.Prime 18379490068137243502042894299750399393614133911214956222830593886484890542040066522716818921317179990634101963135315234156812373446996457956306916887031332235672549019655035441950973202598669835922916963436834134265338445739778751168339423479411534229896220848454622990208567083241552799531581101236837999463330231991332663484890883376336286129130863662833440577237932880055018346609185542299368307177840126566647820936608021335597843816601164878587940207803175662581137749124346855070804045852218912575438768464297756906781804503041729 :=
  prime_of_ecCheck (a := 12481354778533139321187563415332291415110088296808655619314148538918743755301634044448808471684024159741513523794880116376549964512085580392514783911734998198109232265713076431745836805097694551307856097885279958914785984854884492316539491191241836038549016678477319700952140368277022338374838715715136063634179078348753921649138419048003281436813772834514275202898626744934524370694149821862543428206083723764418064980903308057695782889922049042580199727274826088244371849633342021950828217198588746287087818266036229698468781436543312)
    (x := 8865291187905485189865106244951848195782865543017412128241379425523303703869070585165601922108513141958579077685333063059837985795277149880449011575457344812528341933707859709280226132481341666832596483575629769502867211412204226327878517226003602681276175076009358931649199915233255105927989694181624689270621931043014496418227367456109962928312476154468198634767205375844028631445377960540161671331236521545000809014495117034380302612078841985152148444523483722591981601867420415554752816250206937327930753901442188658279605123631806)
    (y := 8412293741527777183723239803386313534674979231324229799308225065726493599514656631147715765525984473526276958598887469693582839565636848333336003887859405415415988369234531361381926099702152239426665572918507297299931692822248953557242532024223443521676333738624796845745925304047783684080381367272295092881487866458419618768048510930970333429844206705512392869664671408747151844798016873793429496736962595504705789066665706405201210082892499493802902160273701958027200110946537289749471102351462825963137084325443589009967196468497900)
    (by decide +kernel) e320_35

theorem e320_37 : Nat.Prime 39200398124172744670725394169825768256349400026627968479594704478883535445968029410043773482452476029848462447717921848128268319762263717833200740326104358137134299117546136333801908253932332384829392213404991628512086679079387694490712677511495763228216410940067714138047592816889921632780411074704531978065287428107487965765500759924569367942540147097285885534948145877465280120924550251511182905703539795528383903865522305308085152919940234637023097431984335734106406845094355913666116864310197709947730472301535616293673104494091495661636860583351602920197 :=
  prime_of_ecCheck (a := 21283143792470855607616034577036189735871913687507178724378718820951489102754126572301286628131359457881567189841776651837453476912907382899251579882352524330576243773880185628141355069333445154467298701476479288430354992003108278881843722625091953336813505821880406921680898526187680395886147764348267843135106977423815429617339802323591402101214933659052885878634507232502597291989101268920306073379580665367869042434764973376008004381639417929359620420139870593222942485106608031217246277394523212248455783506128072434634151759613196708953194688676446400317)
    (x := 38361766734459219829143057146649282339728017423882582542079750901307945551247826805587064584064719094311370874596420085063762966178872935671918925085763919601978413476591918194496836088585870947684423989345535726938775465180272742159116634865137520983749309285218816124091481018540454893465063342118779083611543712212613990189968594084419926798482284403945244628140349994160247814783684812109629888424641910939623961087733220974294460882980376466216553645448938903832094871216997527827287920459196366254193286657085822755988764761109019998171181522171596379459)
    (y := 10342665201008617871397704220269261298917223770651044255419605726346012989784786378023809152465546395887847396802244781040184843791421156897307567007649395330049258689779637965114220715071493715486655000441897791691697668864684687582717095122569469692585786096820463819906309990734206927570063136427465609186254252824378189768990658915711401610698217475560898081147184312889463160857472833508873155095086220065639562726083597007892925037519059903085809720316249189029196111626199631909526534989609787623830794041884351554772188208254497127624705995935405664474)
    (by decide +kernel) e320_36

theorem e320_38 : Nat.Prime 412173808832641587813105761175576433577302730895002791769981013923785114048098347927458579277638240432270618416874233504111131756414061678062709609485091650483197414786698882293447442135632803241076685943188808188174003261104721810099416199885882006466474707412819027299330535160307118699182353874041748324615712853736383827433102111044743680511325481883615129940878942443683101198162973729391518931058272749588036386544670206743120573847047677180529675927982297604288455500790974828999100846370021058694915681975593065529711941810118246218106422547376103590403477050067203 :=
  prime_of_ecCheck (a := 42724780669067386002067578281677778975619104718855140411479998660052283718312619100896418510505378980158027599213485653729632748125523813885853787361348016852505980461279518223599738877792769321325168106550387635221868440134547909200592044582199030040926038588785609064914832142048606477506499246591372171204598570078088077516643577297186594683790381584321278079693446986247573411118610790753703303894289451851307470760189290398264591881856389540283386082273915328497051739765673648642630983846830949054274961230922527220178548408415034147016930490917542827764342657669599)
    (x := 173812840857406537328652130019454023909932663930796772756374833504034430066824587153941545604431302250822425126823841929881565007566861252530894537615375637980883058540459892491819170203865231989189936725105658993703932189183393468591445172389420875129010517073054646871116111615896115193550775245226231764626153963670064742076826095528513256012321466046848083130653950991684327868452220679881989767763102069248676551098132958106978489284251972598330942824018171174796213128959730102402112005091341212415723454160310784662150719186011618398836531021473732468764587476957609)
    (y := 218715763105990225330541055333672588310950524056434915808686592183887926674819921237033970430503879366201087602632236765505801269645462563811951857618206457513605349158385367339742333009341619855058985899646249767363453907805338925070796970998359389661759006689886338872413739525731801715130196203713593537700079084988151440438537313849433337379645782027494185017711740368691052872104522550028853329246312833104579456309270722237230511047078307351607805294597234632128702270899330046657127255614922733332350633212705195188127042355622813173328708369219872016889796705936704)
    (by decide +kernel) e320_37

theorem e320_39 : Nat.Prime 18516643802862220967132392547407862016800652864601039743889912924324416528728922776269762413104002640661957040077775589799528925427788914471684931156003584479727083157959597040895447324227174977026727871483772509741292146249848101878313115536010871366049438826352344899000360881518383999403135480447736887638704082675123455800686790735597259135085364476713852179037011759488751170969846114691533695134303672107798671940724315989714578018130347078658476122168199694175153985313972316070705497016676415355931716230068281356702063180475047608744580148096075213586980420588461360187274271537760743897 :=
  prime_of_ecCheck (a := 4432343897289971049652369618572399309224460540009225969838136059796693908223646418875066157788913964633481730364276651478475644526405460164402153566561502212238616097533908134553580276431708857633859088763798955560022836602569380588389902058332003736136059917820190850392040376121411266677212473557054685253729827654947747455584770250861292356325029510648210693535957235746454579183517193110906772213715220128326394507600188544448101004150341238784428142249424595805414340785537090866077527811710479381635627211455230912463511952621279830115628844168222682269218433091716812470166991619193579247)
    (x := 17684126128487167182156930304042852235793154327229836234020147953482262695086541779601162835460702785599109102523918721763554409046236486869551901000237154909984071288351018307714640136769096087129235915746225578362127690194348826669731152105214570289140630116396196082167981904538120919095066588027205451719840290360905037298759669258790140043699005484502710506067439843306617174517168246777238201230758094177600286147449880660169060437373319829539134331045905762689002617262201822192403215659044363775126065516932218330200509944975613898568619310846428713996841061745780818011479043360553599043)
    (y := 8829599522953287680551184247735743510113703588279613803117694010182839970475935830673613472221692997684402745503039202564539105156883287059020056750595458401172645094018734836273823893084752539695836143557406978673796198775459917182678084931837054255558175312849751161527579276669474156645496507696690692516971469737461534374785312651698158032183247198062997747181017497940928439845079683231266700524109782465351695807693629549561781971368023667120262789398425868135826389207376993668106441660576237289616910462060859186366743763830835043199873458744005250759802188918505634558934686891715579473)
    (by decide +kernel) e320_38

theorem e320_40 : Nat.Prime 30049992863970872899275640732602966085349686770583749545050316819155181944431206424405801368982789110984101803908529337164289207537571301627813797278009135087450948514003862582207053681440126994644957330633848215375268661836749716933785085192144301162363957302176479298831589564400394407942861032196608021379069723304336431472219841405330099520378127131139862554132504724439635657312512552567424975722695648585423569137011359239728892211405245454414299529539210565602807024860158735696131242126127914875329690252017856314846979116621223773859792585490920624274408026578609397964015277316895892765622065364357676058020897 :=
  prime_of_ecCheck (a := 12823519631343466152363541775134507794432108490026168654609751482776784565248199027254149394459033971256919240266745396635234603932163438115753512700951088786703313588096140647824708780201395811309606399642615502944649668739763180331648776674627892163087993931313005072565468694341590748041047373131031369682403290602699878968140257142879304365805383041459116499733787894971606677690771904753647277646286278894605216083026544199121249995410564500545254661291244133065252645009246425881102158402703864945785820132791915695120765097858182318288845494076483680452980443001477400435916640718912668672106101536821105305781614)
    (x := 10774199538446437163939828884067867349186262585934506116489869547312426369056642609094538071528240072150837531221212344373459720000413255266299779918360660584535592437799776988865330386795570514157640156351768149094800754785148436869010228564403505297938165371435429482627915260837900825782932748309620417467297229789668270276331837681405921467400640551783099322831246121357026894629761660591746752049543454741100447594610412839308994917062717447672784912731016573924583230605399934992235059370310554533260976872741106197987757905255052315782342527691918632316952616458257953730372837807110241959396266773051192557528897)
    (y := 25558611358489025854385487466423440655887201954746947183460758962682294713230126768825012209978969010349803709792859898093649547637063846971292190750117105051532502034497173613660155380094590653705510543824353092651105642367127992874686782950334812344207615194509583434032231109416345357605041805274889516740363916645584327585506274565016941217647019418655004514839651758371286647160479460857992542444508449623621586170335454378899855961402600293234796239875232029779926277104390802579705993414760072060246542357838405256468873538468096696058887843826819796010138391900537853036265860299188063405759687224997502844704616)
    (by decide +kernel) e320_39

theorem e320_41 : Nat.Prime 3533629787691793761357206438127720106801943552627217086029272707013091420918984363145039015613888947926151646584540320297694784538686400121926643571293272621451721744105908339101493908824021706080848205482476893430260695704482498965518181574217913606459220975900974465394073814553674532745843547496216428285279518937940971319395382878276614552897600693840066106054809926693432324710512906060771274650822652045729412897002229730912611499084950676468632345122678190079220894936663872107553373423828481353756096098385786071513799760905965072210028860054138566185761921888965882977353159806733092368708604880039178137297771404717827113 :=
  prime_of_ecCheck (a := 2687380411763823845471558676211952716458636604626547043000970419345655649175114269089982834719471246625061854056679176296862668843172494603138614766658352686705324969482642377757696131168026977167217626857004125983136093752404333521037432630263044822393284438716464599371591584554155492190722692621124522092077120718970373435819095455514701679731665079193440787256812302073646618303311850678052205518811050271130858005891159634529585994886371177079933849358758136452794229320123764480107009183236105231425776345252124324479717888320914894955060427079037288491399757537687954065496492687135909251887210506985971865707349447127810179)
    (x := 1264241730831879376081205794977171982123600949146866862336329716831779825128842058711996108272590221917056179351465036467239371556492233420210548656942956794586505082674589373633920857081318827080068493869607689332121173996928426950360465421599943032788845849804265006617903394510143025197749581246856271863582735812295845912195587502657662024617019252936174161737215202177568400640714217781689917202256772975885902826561006219475348998591407840553638943327143046801992993639887517978264508001554576640284653566146064127345902105002364828709978731151448585060548161760521595634739199732323841082004394269243503448244024034870553966)
    (y := 831524811200370107104944446528602754394529331877252654169598564328735151339390726584075494742097884921104918087426103346771013241355414833107142169241665185143946996924049658495126009060340373772364273120531017821054116997096123781889324147993272714892980361887541805938706559749221603317201041592791353558934296340932955405067103739364828568642490539074332682927101112941976184861423808844274818460936802209660479853941732375375235477050474658170214981461412184441508452404845958980294681463491011279001222792847195419774723048751095562375340318244648826789924304205044484519015489552036676441290695041985860133995048599348924389)
    (by decide +kernel) e320_40

theorem e320_42 : Nat.Prime 739169606889391365820213408651988430038117557200219845997115373274151300091106884602931436809766740515923383674356450625549669654211824571499360084731827457817070268880477705640243263666289104459320223379006129993049415599102274653878311456652168564856490549444755050022054846455439905385934269326783927084330522781410671904362115638190243899425065547999076804577337388738554903906516956602497255167104700331729494649916773656460203633612263939940436069036825147737076219853036826093977905389833237079649731208987644538750144097853543362812760439288740602692547230209452219100606960826659596243990266167789975283473279282680241464389331306563698763 :=
  prime_of_ecCheck (a := 702997398626861676282009868972682549985834784014407265603308897522410614877859181952856683767877073148507440382472994740846821778677278723144056734601684511636885928659145418143299871836106012079715205370574477836157623780956949332990809131745199383933715582577381424764928141929262903592413703223744287558157763822497863668395044538585779929516849954141447492629062593922455515486865714871327338909214555566410244109917744691674130776435468688129889117940143196033362589644711515795898341244947521829058347158897353652504198569768562629045413568763710641073141163865310033820450711442112234133068697868406413164440279774196276740345192241658100200)
    (x := 360791423342757937752916611167553845967270565722547495087863542103819207830891475052495062510886625469572279370762356951301900747703594694666412760468847839329626800951664471582788019476140933452030894071351010195364902394528427009294071654909831115677121106917524140045895072126879149561288908655978193322749593229615585400686787772801300270581586586785560565083184475298259638200182950607508549578282805619960614773823031933949009858218035038224726118550336029449406005745458014381836948697260644741021735582651769349181110792292164369048492156985241849631474744417719607370523652797814937023569148921389169305268302039134069274983295252653743323)
    (y := 682739413412617786045464940166976613162604090454232409165125802067672068710083891263463247874157838218657150195433160744805043239709908553563422237144538868059248112414009952722210854620585093650203542230813999457297146462752380392384030949813202897608462886400228059577035983564283499159903755147292846104539641654766287940972434651241794475462169606839794269802776376417008878237368634632232850543551003571826603901313129200346457001495432292842834887179004284781942092381005893328043285624726951500502916061690765631231587693521093048118739146337289650893629707230570386913529978595530372765053143270822241099097352774993779408506343312477853713)
    (by decide +kernel) e320_41

theorem e320_43 : Nat.Prime 1792653067502665261155285235449340344983021327274987350791695481994946838261315303808796151181883529018087705555564971292354810058554591316641193134278100205033765431299943024056880021546245760587869418297799878158127095374250252637151931747061429500432970951839232200849344389286080460363415514991953757923515493685384494511570101051839029135655425316510906159753180307172721543457492559506747876184452332504295582696091648691072549547792731985719339490665512464797463264247000361565191287518558923428554241099147910881025642567835736346632014354516679256556987417268894792943178741841286455305690021154465758500040645105175266865545874996559525994851709006956263 :=
  prime_of_ecCheck (a := 326650699260429078459442793145279994861905577988546550206974679781499577926816711625158865896344628514262524417918069996723353946645945568082389630801515334297233558328342089734457770382690900527773557104757616656163222911350244104430089595704154549164293048565410815869522593328197940770127184853337157793352073678322907978139962918038731366124800761090915960991775566312772736018006033095700970044551316364002401359343110866663357321858484556935417046387840219013146247830219164120208745117950280428126849873355816267301679732185454094862252811702812107862077714218758972684035974209616640473815509211319051068378977728484496587992196416837985832400262402517406)
    (x := 362006942685043150836755455958293494178666155495196679720352300622648265328861128224548349940793730073296011370890787866212165083752833975826424965304534305113451376061421077997160602169629499538437171015059308180536673062139361107111935509092474113591016541440656513590699252369127676630971826252183735538281953959656334327950576502180932953555081419204199459281663863997542189756267751215180417312488769592272327119751177017397901612679992958250681477093179522070362091666803279294133464258653967067206692444472556140405511369088029349432579965919236470122648921544074167388036374999430018827083892193683939886143699709268846354110051826744437827503757774079194)
    (y := 326850342867384781236331733306164312727769762589668008136789245731621660630944366598009862261920284626058457205150925635281573663249569187716792534961271566582468722715373597784822620209055909648418752259338298179639068241380988261782618900594308908793834307120429858117620169019849807442039879961090034394557320462042673373667957268188822115231237773644999116713024380841255060556985937242263003980080077815069545963759380641610382652803444402763912430303644979859053248789597506746492715579635779047783728669272963257671326417845018437542712057159230772549302925464547640819651830683158352151868168629225557414752267756730721253446507942694780969306224158213009)
    (by decide +kernel) e320_42

theorem e320_44 : Nat.Prime 44909428644295847883881322632168481715941293475036508151198450352071333486099609469778646970328105699061202569423181853992701540194761020775908154844375468991765465822784518722288911365048011310109190708828214916845630374967656460228345327209802316685669676126658623328738013855783860772917732894801998076420906756023072511709969062935586485523704173127348632123411771718446129514606827856743795895919260442099514136888613630414436466487002244838355261714281751294182065435719631889783361333635885344141792580042036952695320125754764837834793556452309203379260582305215350737599005773915427176008998128746910077833345172229364658352227946535815717352256898571646127063997142179477 :=
  prime_of_ecCheck (a := 8695782863195679149443858145515773325202917670774796016575868740406250039701085765536763756560559812060820847040905296629232401419977467268512331578461328111978266376192927772670799629353013045496366756412713191663094729201943143765606303681753663187257098712684523912764407230106489400217900255221418199587526306442796940175881369822320189279235738743085232466853792324328757325384363617169279012055416640262809028488177500449820523680029663012841308061308404419263589871607172309901483933388701272883360829479421178610645098241808037353100295544154478683777189533290567768856907994380026670605063812719561315359333697194117320879533295568262811878637962939877776356024097766351)
    (x := 16928260898955453639711143366403282646808124491939284244400707535314652454712498331717689261138097237529075246213936062965371612556220281536296980991033520497275323126509192622046748319548699722674174729828872574413793721802229981157417651807801718747088623997002751108365393289310115394693920540767353927526819080547123080258087484587330521681059260539524355673006510003603081344719096241371830832800403437535861363331556404792657074413903588322600977892268448835539279047932837058228907049117652272375795595623874668745362353062714021431231236660631642381991103910018253796377523270015673888867433346903391111789660043766738567663826133773649580185549489419915241780158361467127)
    (y := 18331207563991693574758240652322753823546888912727655954289512944874820562527910724073209247315731899260046430248467910845596770993839758753637804604503684717173689314429540394879679297806114255977555133970585635256003662119536953654450969011276960205682756499688125535038447361640947760428223791511433265051238421113447579774162917777799833703844868179231701361365904396705592142892586503226871508217114513571675137690181631854685035490660003186637586955508033003850758484749010286842872323887775775799699343992841647297420069046415999695170047947698020743301788875416488540085760399851170086947852249413602330819688244593103856649710813637693044724455420231901205184991190566495)
    (by decide +kernel) e320_43

theorem e320_45 : Nat.Prime 174091759415042008688649018234182176719700151686326824140186002377407340829533024906472683209652664367256344249989519842457539462177312655125974169519460260550330762385750769103102743217899536227728758656298245750871420913605120009326862487691416359050531984862401166602839540616056982557101774908563103959230256406977488776223788752222304495847523090895582858501920105416047086905671804622886936072962965029587435132024010109400344865053642512166575617754467919370589339989347043477107829230755416220758063940970852664362333870652100356677331351812346345238981218124177841222086356147331305511827911832400237782166413229149341632930521402139856450149950900991860814264005429669429230807 :=
  prime_of_ecCheck (a := 131942129242097423972760112974133473842642791995731297215501761741396301834305939698301060509398085881725020019077768287419050179399301330034016750556423394523310705130462411568485550731248037719516275241983264098445363833825123267814313199374817186836175594691405285973934595337682490191984599221706718494140969618297042960105496591994378056313185093004881830923774288482775606153118540131433490196224802358989009968752886021419699468768579549060909178606915398900041265135545145046085245320599505140828990292744285688545313841115823744407371541659474671360381680569349563565786888174896601642580855195529505990793288608146606338173331964697531712374236986925213172119253347093955954639)
    (x := 76668006155377375380496560385657503117021134063429914995011912624908914504285415454624938300548507674588274382524646723482694601316528198525732444617588138046353517301821616560815060713085831945623170647060831385844193067111528658690491621976766924453008678387534325070226960869298535259987034983935134028779125325785745699027682537223134953441263258150916765776623760728346320954038233362517032935608589582340914996525837556108271273742933577381982178540525537298728703019808959511231095601066925881453271293944385531407193393603211311992107229468701253846774722922314834843317388459590681389703304132776365845007282175153975907730823829031037418704862127591535969009336440895524503836)
    (y := 139494190962735135996359719867999663609382981523519480359604609141296886907306068328592398859386079070395736569585530977726114875480437741864116049664054089334544271577348442277174365155493201296621769012954633715648115602338995528736599820333166737194485418194139616498355734778953736719269923144518162447859743736124425398795540377031118388469726346982358993508444817186956024159799869743063779128010449890293983450732080760286478661288981957745099802746432723185969880769845085878309827514781755960834950290059321908774923368872795238520453201845622987542213244232258518124346569573827359022600100651780607418705143888972539985967158122106400723921417228026187285999700357938107644406)
    (by decide +kernel) e320_44

theorem e320_46 : Nat.Prime 53014123739162601557847216497446310496330913283346066716114156311124958481328866446287026185693175090997271679660060885914926267163041291424214246990601453235198635049237327897251140357288485113747451733304355292676428455269976212717043674688679413006551206403417659759724560137776869673210996171875510024034444048519228459299399368777258382869816153110534852078162341125986902852078556052666577232451900432464659167471816433760595925043892541312090118281357554975609373178249091817409631976180676960815966506288370153446524530616684749352102746883079447480210325006594927265248162832474793136858005052864700524683500957497733854342895200813220388181637717771573360884510116440422239071672296796093 :=
  prime_of_ecCheck (a := 39040116361855525365435764480909628603818223684955754542352142563131620401365106435001024346937188800347791335902340663107800408964955009820098313896508859130329817674305569903320714527576101548193545862510564434933083931590314670546527238400018963746444787460948222239408866647067238866268057627873311017002076512979323068697445704670860693426402736201670040913153421711451453840114689001924380611676366136270984092397855939382568831945657437349455286887084271820258369861092802224126088500639675295284016006019017971128953348459923914331899050970140429799225163977972513686194918520334672289653293530217115669694754815475973125477772657935133651216205981586678848340068409982706654036067933296352)
    (x := 45869522195736323620957572254586572526679149669650619764912226486059591796121337209329677740127871244849176158283854217656398294127152396411006214629530690722575682728168567910208954766172846740640241690851449068112778438654372946208234759523468910269278572138090799264532793836854476585850590354210111875798285872418143036538253888324290553133664235430897694330358547396961546442153225272642106905697045100104982649240605866689356735359399867083123970700822125194049225618078483140364520812484369317094846824289972240234329574737009978379364272414966902599076067414277106442019863658653522481460026334614408710123678698815195870869511334891783589472142756829149406199256289610808852769912273252657)
    (y := 49058288580638403935012632782267364120247682517300367867649645949321458341204499223185308495695772087450845519479222936869653208793486829317074343449808558431357072335942759991850573060959933858699950269494063621341613425096806479944453132500417948321313667894985561322661613763236294638925844856610984306855774801584982869345129617231979956689627645318624160059156053795262503649471383816032196716717806865666732085923517372546701366869580696344628503325949011513919214266512206009305333394955236228436319950087071412025837787368329756877551959568162697819598475157928038371698481614772541487984554765391719088042886765193678636036956375662351274546635440618511170992119169363451931781850490710526)
    (by decide +kernel) e320_45

theorem e320_47 : Nat.Prime 354754832816478653627343178373492403697658604619957816410650626110647234752164928647882527066999146682554684498911136058669497047580260645777418141041095395086826365041253184792461627440855222824504539428758970498406937540480437754558393083930456409040798246327670036271976330257861323599653892562592855764566716257849273987098757884749928847821167271233140106370018454411714784600189603959219876258230069453149617537817530371716736544431436027191222386237718795362056549356408195490393292257782019342041408673925333923474916934076210716497743902812280705501948078650550667604401738062475349021690210403894958163998290609658104674661944829820895141057997562202901403774177418973974034655988386612107088450473071 :=
  prime_of_ecCheck (a := 295911123007097124340487055368001318255725730702376823892728564967079228290480117260720132480280453810358089254471331970063799408566817141821046894375475261540559668472295397531295825576281982523399085245269664229067104094052536703805386594270453884021098120963964317143560496081791932923415255247320028751751274939180169415165839974768722330925770623721306924658294687599813229641986765607996593737409528418287233813107891908465368298480128120192927564050288984135061850411320939323415455212849234703667085289397041889499620690327803488535408146346055593772545270043023529324817427727838424665846755003152609208905249119253857077827873027567193590852825591918313190076218980294202972111353123115716302064907909)
    (x := 173373768710036043364668544033930330896290318469831679809953858660456744106140079738865102780712351595945443616818129672852531313881557182591021403375146323722313199637044054855330823599274074370476800355429632214609317125279181235894525733947772550750848747559805553783150586567685645411294682245216078465330360711110760124633460129625129221113878933336974686946281478009562589646917498961954151168350136211526153877668243645139229280619636793467986828263834432211486368239109012133104008046602796976729669562387285502400015360144708120951467507067532818136771706435137081490400268462889158796751188776409464361626723087394311206137056439065867746899530034033853455775220449107787770714222339066760081908083534)
    (y := 262482858805318453295354545090183008797422158520822183488017652980029686312796597717961086975692720362271067029291679449019038602945503898055413040393853155698680229534183247297265725436135835879330031908095081911094937804977394830140830301314504006001415921825867724043771957716382257854005396436049614210313996118916498235342525581904790794057789246171414257011947102302526596854066393896266435404249755549706049933297942924074320005710872442434836486639252566877457286856757511791433272268608204676740034425246823966211951053840688311821255095135242618810180053920928950519630336793285889620922165797305176431887539182050231877277858135916791826482389329789490942207348164878923230688268624422375556520030311)
    (by decide +kernel) e320_46

theorem e320_48 : Nat.Prime 617872293083504822364920626911909312490629422481677642401757342625453017036527894849756592407119521708106212591953112062267136536933987759205265108952740346176533837228667678639082028145453524190166982662836280697141573471335111770172652526582741442813844489700061121544681823026295805009029735573141713473512164530075736341473721319871869289342355377149770538044292683294775309962717016152514746778425513354121010377117401706996897928656151540732263261966567698988100174692048394555069683866504123190972561633532595750494813979107793356201613121090109947175052870638592613867792892712765689049517166925416126753688961769650460408212575629114956138812174905252176926560556970504970173744980267088602533113099067970223967 :=
  prime_of_ecCheck (a := 87879997133179775808285457284820173035812620262806580239333182038889837918448997948406118530590002248781713340028146317214920615374186486632486964288300161884252530527719883120878499454241852481283992105727721467739269081501769893091380145994412586854689434906470966482273721228271992080339682304680356326538024765338171123835286340603806404030637863365936397282659996704002752574132299744363089538604308704180465038010703639285511565043703098636323740431227188492921999896078860292489019941645884123505471882973007166661816862591039396065606461959158263371578008965644205247027688886393599046469581781517748454355395346656775736102068495115107980585097154102191729196208781843018482787091237152187312649070457290678347)
    (x := 554154376397460111093000260664775577779180192622511347259655999502904522039643500331047008410796016033226356705478469383012486087743140792519586254792030704935995830585525072695038198772980749914027120971862302206391154903742446675211224240834889591834822247883843469618224197548178530632219178368586341953721797296908879568429660474342125790715695116271882456842598246673741675970244437415897466122616599502528754781694519871589661034524653308279479086485191706092515747092413390179875340973183987810124608546199240910757869577365234308961636940364825596643136647018090096969467822683470788689544504314401673028308895801794843264862055855635408574608725234849412935723494866056752993385817747133135477725176837972659239)
    (y := 440613916601475572085354213159552570235898218458636462726855689458214789310833153637270965782807640854349290477521911974151603189805773596905753720697824922724837230033348714907661107904419310078759043682949689820345667290983092325567642860334105086659839261350736496269571454916112930449438988525504127739375075615894698833876601099833550742822028310643603003235848563524931905150457749159175465857214867609138908236279022222403421300632019578238905836525901983092609992579273424107936238542464900992742804177662654418487075924328148305732615506105435249916494733867117269603655312790838973448765296100850451677110573186611964886040963778220006881644383388096329593177450190864055456724694983444694411322701356398061614)
    (by decide +kernel) e320_47

theorem e320_49 : Nat.Prime 129508873172490748737457811083421327861346656722304226370406989225500948806413006851642621409121823145596648981753647661484796404901878110610754757483368674906248782303892703449588302568471188645449487000497051166436439001431762397577484387722390268974180710683499609729628160530471583517128223341479169783840689434651558430722356901237028143907852586572415686740149391135437976546404624516152756152955640480629806398643249189245236778764602563082859475760561799930734174890463304601172396461735626068775030989762993613100800247611462054187076990458342831196333045316199043855626323132067744099216592516114630958496643493795964044081538443101522027852806608258116022561059549780290618324733758730525189352380333318203017153739317970176010067483 :=
  prime_of_ecCheck (a := 63019416346596688873921005906937260966994490840090482758704621377223679956901484803836478450217213011075607018796043010263758553599709502737186570254910752827020870703479025837074774661227190798763307142845345648493506558601728511368058583576104198741756946599037477241068706874598572122631092057412953436549805660825771301165074318802898436971140641479079134742709447790407527558173784483818458733260201317782050382106596940363928325346683596511048351875983802867595340712790392562794865557894747017235915444635407483255290276174891512439150750343035949047095667256002705729282713104878803012657513261852479350538310901146020182603544743590107496693143404663512690951460659886032251758724711105659991396084820184755620574348420015460879198010)
    (x := 28455958971302346332415431995551948615585475601035459969971043106479735789668377822038699499627394921598596784090381148273347491702899683031494415122517262280567868302018908990708821894394920081853474220136213662727455190927473761200685707748176929888817525583605390813752851680404454605562022210671362208767220580658028042938477343564493164112994451401881427636126406429322492155649298843926086707775083166442753721786591432869351727086436823901950124381573885805493966370348455553175616896505426953311499878989711047402779227472144186792056636475242414365862562996401442078459129607912779632230238421563444801573664229945830305273016017224519363632808501861284441572815898193971091934376216687349337776452187039046769531002370136587493040162)
    (y := 119494617509832055906990490375411606452549915910100650726383701857284244144607758959414644080696705593340296471504700890294087292287194358197162773941703320789294057641070820046404918650364190533843813810459616150238633169138126380706985849665366972325491912850348822530701934870046511326228890549046301268975764770654352524575368455892455604133287351800314935746373745880315902485645043213921931405408906336499711748351486015082093339105203903277079515132500568319431028155651652681004688503057656770515752320306465292886190152112426432666714141177250238676193231657710132113624404001653125445783942846425330323553823781479248114064338217711740743949868248551815653975175702297396737926391958464386856499704682122851523105833866018217454182516)
    (by decide +kernel) e320_48

theorem e320_50 : Nat.Prime 3305332382469278597817804226000858412326076674044473554128141988592187779365275455779652389906304747638198222497557254983034210898149356603170713104653155925434529419775403322682991985686567794077051023582627885100766368271618531327852248775007402791131041913129357577995586138548356555151780915280786489385601396488664067562419075667023157422385729550157984561300349826192919550965521868462108234134484403172054324853404173387734609266515364526129945852710469450218965628629774583814462927340597523162066143564474831183530322618363918772617305735193229580927418427240007025566701086704554418251901406110113857302048318481534995537275390326250530711984297513166940720637107326358445780653925002452347476258615849517828565573769335803921214778965672018803887 :=
  prime_of_ecCheck (a := 1774868407544880043778763830652598581768841883164512440622771779292792605297964899276765168333009205444385362713709013600312546522739283591292689321980627053261303079925002452189637264991179594307151303448773640142516719329360623020158378386006043834263494809497842539158722768823229207358686826297990925987013060244609728602375082375362611627528916816492110763720655947930608176108505814562241050763874574544564874231989150045307567645963272010503597202677139301330828506222795578073102124727454151598047973653053483171639732055641841560218022482636710002221558831949011773460044145996561306877337163866056117560690397583149377423214009306967546427801424339665804396019540266878276279890548773259053629709328505355096686304022043287415586207592509107390001)
    (x := 2910594081627772223529445370374103602482588385419321482504615836340383048772744240709909870090346920364028026332489985032134476014794436250464275273498205933349554761622729471364974909514138750477385990692414626152198331476805144777879134825932806079428533502664310414022550791283368844347818777963251543355264126471035195630305346890796925567994335198103694840406583984255366033640989004907413148914795835114332655594741794813980058977463307833909886006140007857561212193513951526719993347310699152070969877167674276556058805947727146884075339866328114350839652119752252831765167052529140484165348507855430030222285531018837708595019014135862811830309725590519685721201253379808869614877144809092132796588590375262975928146281439183002427559033866778936541)
    (y := 29429627617939134624942265458748344787757318629863545961032245554129190646407583736154187753255954972706798991027499793597110675542821266398511703757920433829019246797798367112670923547556058006601400617637165512037377580613800888194549242584544087768091270616186753840244187519992196607512525993403550460758020594596320021162624131435572121423420420516971331208859769479955746518040072439401966681029890003180342946972860180440542464026715485580553220832836731768468853439225477625491707775730381250321898363083632182905638439728319082663493119749347822329683369809359727112117368835476352434855324949433372516489340058210196959083572626291445027906363198414743545754025667616297841540843454044666234623004841354215493470715534603204103757154916654383736)
    (by decide +kernel) e320_49

theorem prime_size_320 : Nat.Prime (2 ^ 2560 + 903) :=
  prime_of_ecCheck (a := 394933766637721908614474497000448522473066324552223161935543642679625221356985165416731829378498284080332887767608096430710253141563406642437589221910429625974576136230882966989967618652707515129121337009051799339305125575392063430200913563811221472510505902755193529586955989206734876075166379920701978394054099087398592818889412799103142847555285792684161907617015371257303076221168272686608523713710650841017081477394158343594247018173293496225748001830112711388109378319102393147091091772700715369673397241023512670821013046312634965544093649884019896457772091867796990850511600270986550570112449471287841737232473103218803456290251232125601346186870296052353722489846792664552813417590272114812567328761999157519143596276222366515239748948717863529021059777094562359)
    (x := 46147800983903773135829195436896267143615275835459544110486821011636185194144144472603473800548564812751168911408689669473267315545695725129038545133504469381876187693718438165105627689083139497537678720887552890690497808773114135777899757724524747114435679326912180763444534851600601532448400063801110215508054737731260220452114406848212136538691134079786168399035265350676588890208560700823947542821360765771287905980848088067903845547959254863956242716216600214809735174182877578414315890900326528812726392530514319517881259801121838564035263200577256109967953387461817954456000543637136459062820982861984322207765536020522882700368286722430435523951777852051032353805095556179228854008232666161174910690330981160187152583321109598404905941098158074136739108117202326)
    (y := 282638113298322898331566700111439380237728422524734458046731725518817767389491129967790795767867050463349201317844439175629481421899593303653758645503213802610533641126704969139391580030123193968916888152584039807186882729012485501678858363570000248136429106441830076823022297276035885886663669503299832074845827856909398986257500527787934655143967711220926698645965689004274842880529566265203916229410328729842932775542885294263172061469701747095940162968451890039039831410882926561565455941118677541105321483702301522366417342784488617078163098259154137582969769441781206477930204471164180571336791687784331409984027447083079404852776987179386199665043202366807877558667570600849981698023194343536328353278307959203947930999593888293358589579843218897961012056162953050)
    (by decide +kernel) e320_50

end Aiootp.Primes
