import Verif.Lemmas.Ecpp
import Verif.Lemmas.Pocklington

/-
Generated: certificates for the prime that the permutations of 384 bytes use (aiootp/_constants/datasets.py:45-369) and for the primes that it rests on.
The arguments of `prime_of_ecCheck` are the coefficient of a curve, and the coordinates of a point and its order; those of `prime_of_check` are rows of a prime factor of the predecessor, its exponent and a base.
-/

-- one after the other, to save memory
set_option Elab.async false

namespace Aiootp.Primes

theorem e384_p19 : Nat.Prime 19 := prime_of_small (by decide +kernel)

theorem e384_p11 : Nat.Prime 11 := prime_of_small (by decide +kernel)

theorem e384_p12541 : Nat.Prime 12541 :=
  prime_of_check (rows := [(19, 1, 2), (11, 1, 2)]) (by decide +kernel)
    (List.forall_mem_cons.2 ⟨e384_p19, List.forall_mem_cons.2 ⟨e384_p11, List.forall_mem_nil _⟩⟩)

theorem e384_p1549 : Nat.Prime 1549 := prime_of_small (by decide +kernel)

theorem e384_p44524412629 : Nat.Prime 44524412629 :=
  prime_of_check (rows := [(12541, 1, 2), (1549, 1, 2)]) (by decide +kernel)
    (List.forall_mem_cons.2 ⟨e384_p12541, List.forall_mem_cons.2 ⟨e384_p1549, List.forall_mem_nil _⟩⟩)

theorem e384_p98042756609059 : Nat.Prime 98042756609059 :=
  prime_of_check (rows := [(44524412629, 1, 2)]) (by decide +kernel)
    (List.forall_mem_cons.2 ⟨e384_p44524412629, List.forall_mem_nil _⟩)

theorem e384_1 : Nat.Prime 10817500784190706801549 :=
  prime_of_ecCheck (a := 0)
    (x := 5279474020777202571456)
    (y := 6784037332329881638622)
    (by decide +kernel) e384_p98042756609059

theorem e384_2 : Nat.Prime 4537294962858629267341570323121 :=
  prime_of_ecCheck (a := 0)
    (x := 1794089168815710646215543806172)
    (y := 3484905912238818808091339231310)
    (by decide +kernel) e384_1

theorem e384_3 : Nat.Prime 181408081433694157868431449175254646861440469 :=
  prime_of_ecCheck (a := 0)
    (x := 99105419025533907231570022224021010603451879)
    (y := 90225678450068783983693385115105868284502056)
    (by decide +kernel) e384_2

theorem e384_4 : Nat.Prime 11931700572140850477153301343393448028568269982188499012770981 :=
  prime_of_ecCheck (a := 71473770455921894515574826712323229744388056400771594197358)
    (x := 3044352140588691857372607543360291105764084401654081293786684)
    (y := 4868718779567940037715791222468018855276767673532363265287526)
    (by decide +kernel) e384_3

theorem e384_5 : Nat.Prime 4025788370446286039795027456080219613286639724189031764575528294559673 :=
  prime_of_ecCheck (a := 461164354261618561108542035961292976283800626381492200222911503230570)
    (x := 1054428641565207526128365044143110741141793975713978777083515379977140)
    (y := 1037199802442427038313567302697471093620478492072755449768112885206731)
    (by decide +kernel) e384_4

theorem e384_6 : Nat.Prime 175925591219982624759980287720292669051982046488309688490803016760236567165185077449543 :=
  prime_of_ecCheck (a := 19553808416481507135351793693990210310703822115132228583973165925943492337710166186649)
    (x := 100884104717922919054155542474647705696366126748829041357817162621668868395207877338369)
    (y := 141919961296686170633054847501670750650486427118078512104886397112756044748887990755695)
    (by decide +kernel) e384_5

theorem e384_7 : Nat.Prime 9279712932631730515007689052222296188868676585050201938693090831297340314647922152887844104046633636069237 :=
  prime_of_ecCheck (a := 4785042133932967903648367283931677115668867661181602559202282669418879846477526244456701076415114551065588)
    (x := 7820251659265348705652699204134291826814720576559233980787371743626112544768164695033831800555117159456359)
    (y := 5757078770199877706103558261727182982644795870434451449709837496154574200478918739462016773476621715754631)
    (by decide +kernel) e384_6

theorem e384_8 : Nat.Prime 165346064810195139925097096111515597480453622407412873095592930777611917656723179401277378704500655308389382417922819870269 :=
  prime_of_ecCheck (a := 129050567197543511807229238671549869042107734240348059810404683339107489320504078693478455037830556864851401345301486558272)
    (x := 5745331539138281734199539163080284638308758198048291328164591089819485971966348864009137226744587934337251357639103819535)
    (y := 76298368421400104030128592741315717359825506592790194138529950047428493761069900268806590798952326023046997821197972077924)
    (by decide +kernel) e384_7

theorem e384_9 : Nat.Prime 98752745573389774375738032352569929467181742329803263341870076218297076190198671360339310429084105972659353972875100649215425091141919362559559032463123 :=
  prime_of_ecCheck (a := 71452269546037566239771580348808982119858224224509740741976698475201597620108436254545953691314220563631254216295818869130654434147225238204079494622577)
    (x := 5981829117755410639495006160218273843665249892483708205475268832432329686941080550983187698450100812093910949373022038158648923082613057126313083991397)
    (y := 74927340953738036284415750716193224407868592462940671251100517249409447563876730140529198982843022124453467213748321360796165542734552427344035004833130)
    (by decide +kernel) e384_8

theorem e384_10 : Nat.Prime 77842827635487508445217867919052657091292961457909531610712247025636724868028040795191558204104607208686051120872026986898880362712110598726240812435708071343877971543 :=
  prime_of_ecCheck (a := 9160177013235930789410484574609758140144320749787510216677528094858436543794631458483402774076255782953703113590290385957712631312264669267744195733991178711264896517)
    (x := 60062639603456433354171820197124821135663772394445723016776055418125696870623819861916682644307989774148181698109155571805051186922933879835008988338540939505964318702)
    (y := 54561194801288865604796537302913452177520812734962572032788835855733717835660804698941290576135414414787131081125444757417993390269896568725360646760182898398552273068)
    (by decide +kernel) e384_9

theorem e384_11 : Nat.Prime 4917281929065903112021863025441499158791527771591000879019572705345161053650440416739649814980053828599485272318454107925820954704632638850671137932212652125656249906522843439264797 :=
  prime_of_ecCheck (a := 1107514254678413151883788953662515427997427554219185320233516931683503113449559477371228563088554634042841711035077154739226793925751041292314768583738474476055824231819412615833820)
    (x := 3030045432734902097525826210595904275371737160890056897703870360302528552286221752107181734452335540792840279318586898495606709092027418345999290518493250952541693587335780483603282)
    (y := 1569225443888649753473040264323863522572416946999259873069657056052585505453864287673931489777586173871961032141751372096545147611249043208015391087026921546185744312665123987117225)
    (by decide +kernel) e384_10

theorem e384_12 : Nat.Prime 35593792115074887532558719302056650169282455375504178668203555842207975636923876352568007548074818388406553516304415472721342398014464980095679550132596866153503275229551996284466290466798923 :=
  prime_of_ecCheck (a := 374603610345888204826025951544606273658887058769436083791980047421898313051862567188596001625467290215766858265933896201414231637292920294920523344829620450035450235188931694467560775219397)
    (x := 28659699717146364093469086713335869636903611634399542997993432357881900754550195102528124748724674831086715299016863006808978472177841834417213057138914085873196124622696326582052327175528860)
    (y := 2631364760245524046735807282204303439000683305162079860844938867789334975178976814594616488220242905436340868333584189004440765462024560682668768383868543109333583978009528354632091675581861)
    (by decide +kernel) e384_11

theorem e384_13 : Nat.Prime 1923672068884667233288035631269437958957330165147857677508086708330203768501787088065493138413978918499445327672067406639973793350048049174425015573701014425304889514433649102074144675927055485812302634057439 :=
  prime_of_ecCheck (a := 1685481150871060204259271717289463843093512325766929606904141751049358645901583145786684129185046660034199641326698028022215231779438680063507552847871196746768585805520339843043696959769058059420226844542420)
    (x := 377496536120299174585778902618550281393983718710542063160905451641768815693311696499128951661962195509040319594738455345211663991894755627252780506185677135788820691801081866114008172683744635710410867995717)
    (y := 609036340672906918986455053821022752127643779868075512788193433918791962126594234858101510024717500592343781058216111670045984073450793920786996063934651767696117159756589487984323247890481597950912811015551)
    (by decide +kernel) e384_12

theorem e384_14 : Nat.Prime 47457480394791101511866914288943012362763686724957820296428638294946365443865118394505950314570418301884332954529902320301421332319662198819285750594435123796839302631230864848769418584764099758889150080890705868156308923 :=
  prime_of_ecCheck (a := 13299261471226836368960810344660130032803600378530099983645789748155827676840134118722738696408619943901443562622720728082720203976855324861223236916723244491683593828289811062396178801023066769918645963091443809032152872)
    (x := 17260085604909133034000046480173362371208304492752544570190568723480746759281577741823722857424900662862606412339317624483789981624660020252216062983575568359831907794745345922367425353974718198224935095572594726365799147)
    (y := 14943707081598047302226796526710060393193508909803842925268363851304176436327908383660394958234431098379495476768856547590654152614318639191808852187509693803170278412611321529562578554971254354488801795482848820988859925)
    (by decide +kernel) e384_13

theorem e384_15 : Nat.Prime 176330166563689688127028690181538577287513951485758719449319001841119103776459505667927283448281121073672059560221007848037133211459392851997748331411737357420619301397782258172249541230949506356846187973741438680970314702156615623 :=
  prime_of_ecCheck (a := 174622022404179394738537992093696530655597364311523091721693373973853281792674878265992252503776665245141603924776171988971992455816400265385906615812185899408475680011017592054437198893931053560118878635719116622394315823318319378)
    (x := 44708608493611726985367265220829602624346351507934258285072530609485975496857016470717148330169140705953108648281202331615747224619819317336476750455346946466098987081188220281525388359277028580170070454071029413819829064360421148)
    (y := 141853396165314214168841762954125667002838316742482328781192005647198238308747121561291638906582812074703006986499230400217711498023227226593148549750019327527619917824072386501515442424980396807252560203100956680240810785488945182)
    (by decide +kernel) e384_14

theorem e384_16 : Nat.Prime 50234737361238499141196479073047778998190146087271998320523298047237433325466021045702466374714039268976580414621558969450600001369981895702160143463347528076914339859389728758981131002693394017439674085313174425551322329613260529908017600651296471234871 :=
  prime_of_ecCheck (a := 22809435326402806863695289119859170086639893534967787281520916813936312462937190004605416329762416886111342172633550873199672991881871558237568310778720916636815054315657371174753841213596188393272427135216352466759677717803725307681933217669290015615177)
    (x := 8994906002276651865478789207315651490340069053428522773902029305170551160076986352026698160036978089669574461741307974658294195716562855913093088477179003532265524528535002595924397802415066698246917781546091403555672344543979009627174484436399012157740)
    (y := 31411686910383921306732457061694328055493855493128498436159810911405561085621248603469085779385717820887470953301124509462332358099715968279044738247225552355460817968628513820821171551059856742935017491205114655705288082901399681824952426463922801470545)
    (by decide +kernel) e384_15

theorem e384_17 : Nat.Prime 6473762097688710572256207344715222805638297790973990528952562215181998441955099930675039560984758511590708935235385874355423638009132292740483451196525259120024444536132752774300194933083429289189323100207321296631070579848853826921059250901223662370829854582376460296886219 :=
  prime_of_ecCheck (a := 1311483276661635903817131984688539826550386511685011505370031345381571202198901748624778814156085556256407658812761744781063280223164043354280440725847613673071938487500600847318227221930307295736629065701547948224084214800717290823336727014276959384068491306709654644087317)
    (x := 331697031577299987042049250159115519984122906836609625479665049408559434003716865351369977655829866486746361826565043636577354529335110771433939209370469709489952929583808195792332267123189447378280881173774163386035213267608018668665545763454371626425864054179274885162281)
    (y := 3214430655170236289420535870407337884323610857138798942092367828061809872102314773038216243537053364820926070391852412592994144434440126883446547807910695447140260118292677759936573304054074405151078066252078869577842510182936038456212044601817537950311075664351993074411894)
    (by decide +kernel) e384_16

theorem e384_18 : Nat.Prime 41583553249438279494513665821165827991655552823493243756031541471541523700276444651139507529828157384730989339673822126663548599126154490121029020679403238528817180980629182909602500447620469224638455814638797610689278708108590934340932457281777546538847461309922682091367107385065587365047 :=
  prime_of_ecCheck (a := 8041022817792511784012264719179949263296173877024223276516682431541686393602648196473574108939937330103026632997367442087069808314760755162529781937306546343783453459027999660296031896927660540414297616167003251654916900282406012035990475771803479295941743801179666356072782690218046281527)
    (x := 22495001063129695923437774049785733258927559540956593314246472953233946691279663273345413161719277899603481078093982609928714535399008337983213640989327900140565810958514335244106097759552786198726490205397972587457761178706795893182245636372713971644239543365947052378367897826027271058433)
    (y := 21062531209970322740391389445770996957882815443664401833936029593690751944502316512752007021814459952200226023375757235767564266857231854433225044956855346411729380840586416857583308734539606023393444207068272503872187260162631030332325625666268675186224924770470818710101248492566130604259)
    (by decide +kernel) e384_17

theorem e384_19 : Nat.Prime 1577622124064721656462631261484579823397219201977647935627839074747106115696587435040562075534781424009518950312438475900218900364673082188338486026614782779623334291891044288315503079740674708374632642737398336161770290936607668582621131113036937641136849129638903878895044176105703189900040025116367 :=
  prime_of_ecCheck (a := 578368302605879382431228867310468069994569887399229167855765564237636788354810698249109214745462087172198335330598155839161192029190568561976690050332382116242528447842615043591234644740044185575842593622366292885950505805057606192998840490922758933716314498743113490576201278019231988168939980950664)
    (x := 32644763617686622943624615832812503868757237259543572228156049748115633179776321176718010935916911999194921010653100995911987367055328013089103351424052110863453100248996033137994495912314653060660514433957915485069830737276284109210308004138540071578675130241994162424342470479011331492364566645289)
    (y := 1108690416077923564172570226875772758658208662204933129359272172351929133160846920156014771129196611297532037808845031156629821287062028360161171671672117032467583200765943950012809700812773088931623041758404957432946211245805507496366953967042527228830823576602211542285111471780946150754651097322812)
    (by decide +kernel) e384_18

theorem e384_20 : Nat.Prime 5868347389813654805897994624486741898106706726676486909268671381500459674002194462910022264285252691590557553402056467470052547991899590118859199372269838118433704483961275902349995874401557469510758459113923589883652606011235124580359167926844915567862401699002647070653289825196390891666463456505175263019720423247 :=
  prime_of_ecCheck (a := 4967823733630487091715338146232877333458795130498277066208310584906965495251481429447334321757852433405355176030977837575669147673208239643115478384502601703113073157420539230411608339046852233348269973254880308006257131565558378968718773631280310168675273843212903552224014331121852732304419355110169849224795347979)
    (x := 4349507160251790740710838377734738828644065685742058473764870100317439382466545868376377816450723389106780718268234707634295224532547416283686798317713115233486696361734363589566643343195793352346909388413254764407996703514061992975254361262436631025958163418084586086866833142528897996490510433888860740650078282830)
    (y := 2089378124331325165658552918153166900958372241896611607152918115351241368534382424290705673634587269193332594685355164461269088062267994650687555295414217789013882941565169258058436941046633241127001443316412093960905489771740325937184399123192128302066090371895188835026198568334615844855222600726918268065897299907)
    (by decide +kernel) e384_19

theorem e384_21 : Nat.Prime 126111075366408987152869634097735091673838990435555926230092205045176889369123418914905024589659100787774781204412615433195099822020896951774207510330320978764831902690155791941414950426067244177719424267836074116256897618583208273883444305527729841184520793522953810314923503532630553036905418918595475494568460719017040596590631799303 :=
  prime_of_ecCheck (a := 124470650128061466228930974987505394719403136243788444845745305753980220799014558125035591003301823559832305172833628014833574814921870318232555338038520435420280994700842845366035832466129281861531361049047283170659043815752009587456668268001365003666703030786944030474945861814630464067736803338646653108553718454666350235278915402864)
    (x := 60044744656522795304224648956077305323798851685009081148318491765617589983355499952769352061773756919770741703305595372675110450342388023989640756592100832082499102926407694715359231773366241102413074789542924745989859436402575290354734906458142002196590471245508972766204842395660118155976475305935079385517758052468081565831337246623)
    (y := 81619849333647724278134051827766513941738235013842481272025177621210908115458181143043406648212577842145728598088978946191888971756413494322316134905810287064583816202792854809789733724205914741790054456064520503102112433544693304284518742522994684199775442867354020614361973954548670474906371168014027245642357519686187176126351124187)
    (by decide +kernel) e384_20

theorem e384_22 : Nat.Prime 174936124607385758302451680944359696492000611386032783937116848905105305825515612275946618015637823196695942925584061692037137949176649381404657752875101225972711923627045545978196174121320846032893780310123084265769292794126773075285512520616391456538266962184870710571709087289046490721942238205208965522680611544467644171799988894504890191384587365693689 :=
  prime_of_ecCheck (a := 32964388974906895304410199365248920501126754405361114105080009104515954267880807876397046772855343779788582858205701428972017065666862347502003013566731546065611745259247666158895633255126501124985649346634099312011765081248505258959829533011457146573696128251662476854070851092948249815293257207525455539133619476504336644230853920833726332288211639957645)
    (x := 117912403578458137489578705884221621365279893655966730419042276552196612327326753538631907350259293020847220180964370686639733904243394328969575853894849949632054094504944378443853027680559132710047091735195810856442471764986290217415370533031602517446683873810836078808481121220922718659937897936021297032678521415270112249857045845446914506806963003756303)
    (y := 34835219862695455165315054095298189178346205435363819578345876283064157461487349070543868646190697845630605429817873897588653093124007318742011770944213529748429673736365234881699392236762813816984452767753717467663133719358480261407719392722344895058687831469966158352227753580821487221997756143700463325058560376982177423437885917630907195004459045565600)
    (by decide +kernel) e384_21

theorem e384_23 : Nat.Prime 1108551322884134156106704691257836817447746526149757757750994613891712606868205260845092437590875608819895765991956680974645365676997329719680416588645511523671154543081869547813802009019186551152826211640846777531097001500873036878355904911874338879509591857658312959501880722818599858558081178163194805336434095934529996316245733016567959601111635813164040839944891579769224583 :=
  prime_of_ecCheck (a := 862651751383623956710982772068332182532578337282342195569838193316228785305117481476060145023178855484928849723727996040493578160388522617044051431570739937461548497802757159943561159483505083238528193571794052582001156227664503818631009786556653409512464822318991087687969022446133644206168034279148056271161020866623462198351532280635306157510471102437108985158984774310060104)
    (x := 609978457094287195601234728633678600909182970280110679970889344694015814985880716869152541766656375550045417366116488345609199474663369193648110539138498054021040620722316717288180023316250450445700158605775397867102804992821294411515065300521689440789567929320339959379661024147878399839941385035473185564214937033706912820410820560081617756396762378949539771123509869571829262)
    (y := 976566647484268642639441828438297601721696329512120303655666610823252782329172668108988088403925967323199009913253746663933590911041072305521129662285074265636638877860603437756469618117715939783342098002444981763533086109296598219029597138874264302944969905114804873633629012160545278131580933701960924837795036141036203006087005466276538454092838734548790268985842437699117963)
    (by decide +kernel) e384_22

theorem e384_24 : Nat.Prime 546009623846385273397456847899611816550824019103546344614567156508028416257907215565373205003896833338820118419580429700106464070456763892435684289966675111971552470869116444067396738167305796850889992372667830699461266624845190232694624003632976404943329298692888072822211613119206470304395750605036110898009996270178324639717560008742912737105010191915876115911342097778499092706980236111 :=
  prime_of_ecCheck (a := 280450774747104480540196109407659440949554746104978507316187844306175747450990499146317666531975301866881082096005602102681446023603664759147763267833562280630244159084082895819867287090318379535365736589943499720429444720747310553574039950626370481636007472263371208077488433757833504390216439860845927546086025817234736907797476774473620416112485943212890948981910623203631546551235336431)
    (x := 425078803138322575316082980546561442517793852031720008069422513185600207144183726656324430836212838370669000633395587274987565909643346438875366151309325939241503031142083200137032706435071998522757464329720766256909701952899220079855689126494028744151586607753461487759839253351639029231490465411276756390851915717069957640296791678799160768869482945308405569947266956062064260967462089318)
    (y := 213618139848192258327519376581422730679443282136677926143453367562625195575751052868416875129257969607844268265326215163620834732973209348384468033252287235430539204646607160043018448221594975258006319500203420451873071215651503028082454570950675154262916236131564948725158611266772674772658787250036681908606317288131394716806825824605063525090759394422478033407765467933478963787383142658)
    (by decide +kernel) e384_23

theorem e384_25 : Nat.Prime 2747864255461252626852899244579994373340358500072938919372715515247090817691819291735578854305905074239761457642918834662902610944134707305983832914302228368392286751691377408732250510925270842054319277265492337365970422119904491860017867880982567461416175263986917561018615348977254214819608783778158429084624296659414939032979063848342436746908731201377611464501442667457273456334326019859276018369 :=
  prime_of_ecCheck (a := 1875593522869177775038557748763390626974514653197377803832527694388709444159073387255790034312227431240200067117542986313861855808860106714601572216656029480683260493183749705350233769005421308105191718717102257959062580811611748948434357356806470456732783020034266574833664389153374386873814979630590172983160675714919099285926541694004474635449026762160927904627106668000956081724657855788646072991)
    (x := 1516435818582245969210547840713368990085829478316171710722140682054779759454954090045827656806334290877834536498933034468360484244163599019703730395375421146774016064766863295770511516004260985650545977463791405147384061063547438465734622511216801016360455748777765758169055662952524625924283712393090348117539846427607229726893717973288835469938889934719904313908451576594213315271636813419202061209)
    (y := 1955507723649017372158314509547806289568137660360688337628536448379104596282917110333139902927807772546473368196596959323436854024270563667525368694235185616029334409697199539993583364014108762338433351550427805054475850461166365350071747909725624398522707111220621086894111740438675323377658363913768931038673978295624574352921322269449098186441615379807505137005776887519179698762612700498446053592)
    (by decide +kernel) e384_24

theorem e384_26 : Nat.Prime 542454786423900486077601620042647560275264899230077060474750580716936968069895782318673280178022689636371466771653887796549109834799509461453462269892180905901824899390556660741273246674077635847767085164532280676241863230751936043083147452770585894104315238153017086882791727352876599658179922919013638469446821831302954011003667649730242616557783169513706839961974800022735362002392055707965935163736280685453 :=
  prime_of_ecCheck (a := 493847536075752459973626707483361249799637491176634453612501532472514892107641377310505816780833277552650703028346161150347183346951464651611648404230683383581378502396736547526680981197023395225576017342749501467061147364169141062192128929067645530155663669377281361731884144828475018773510325048737853053206009245509550766295724315560180167565012176739082418238076114567046696366047315616641684792451654969579)
    (x := 168171046176098685856050348923703544264344805506827884070835982174968310904193656710858351711155872994990208054302023536966072880458003699021591844685963722102642192565418284515527708251621324322110437317794110157550386510286163854167948594476207625430913368757754764855950724190311572255470285976021705185251651752148081139288863333995568297548910549722279938437970178900916627083321040413687684977054190438910)
    (y := 249970072986670603785388607572772362277864205484687359160191664465856511444336992453063047317858181787067817450358544224797745537732183282322511007332939150839287739618598527138967852761379030208614405789124789484327486859875199686423305030299014050907823375235644520027483390021763964668675202622784330894410696123302888378713010973947567425529951265494496665886104556415862822033383758051750868842903591528732)
    (by decide +kernel) e384_25

theorem e384_27 : Nat.Prime 8631988147446711561472969137661235450462974753444989155661060261537088956410970738662477692356230565801904664091232341091207992115964800748329029304817461841906159821133515404881015412571329756602503455467217578203110137009701166947510030601461460297337817506290170152916098943098366656428885917495363579658342825880533521305658765354952765217402091398805803287689562456293162703014895510007735922768411069376867844021749842067 :=
  prime_of_ecCheck (a := 6207971692451680715337926312265863733526641894300526579105402994068525722704468147757779571394460444780904822372412746617293550250024388842341252651794136172090947541422078819260120286118406531688209372552715844077350888115502792311284574448699113943520484531258156350539725140712759003948518395430237483468897901070278641381664259952959647148300213054754086637040824528338321360138153314744588892649719465287899439284550518720)
    (x := 5337619366048788259548790635913482415478870609242056352833899590049478165116433684762158395820473486866218700055744704878077075898452414069396951040662748093553129224079750678038633719653828582909724980268831497411662864488650559841340097741611297038775519557437864985831840318735162815858288642480537020955880522161843646733679976828008289143202508102896215995771112481219485373663950169511720202292617774422051659942668063049)
    (y := 546844289321538542189678800236268912665609698237186254597050231724296185100333658777539709871345827884992125960219725994296541328603079936451669830099132063701593466729887856705874059081163758172071810484604839604207561287424465841006242254361412026267744519939661453121546021270418128911833412506323308681506183051774452918354629952457552662640411734058933570779460344564431793148239284691937624567911293030544748786252367143)
    (by decide +kernel) e384_26

theorem e384_28 : Nat.Prime 6568558028063523964732134065228537037346174940549532114721680998386301187809648628471084132027923142116936947633027998972925978488632809803224218819575210822162285976779221952861456655203442913752679684366452560977449176908046167553159855442556100363712717504006039155366346770504948283115983545931484191267252298236884935455541665769532967909627528956182918927216389107036197737734136236487180315554350770319661103450973375858494893049 :=
  prime_of_ecCheck (a := 1592491862612451398076086945761956828429932543402507389069776275577558061323690271421950253250658238747172544031590300356232377444026989486213148277528177245117424182124976507333129300877083770396626917615628752333245963199327922991063453847697440675265990754147138472861614227460089735687638207392761377905945858348084894752140052380368706355109097374111529044148265194180355173842539499650521283006733953938528162219928098188108244868)
    (x := 171116490987677979948224697858196392599062127913082509405366716645107109447089900636271134107506020233043049905362401568951869593424519830496209089749331613860705370322582783747078835279803092014374378083140961540990964283921994553283802825853147652091063202983401203621011546505114575906746605014136569704847269194044106528107066336952973498091754218027868631531124748057705000368058793724204427687547761073371442633976729121392841322)
    (y := 5994796674513200985807162620989263019743853355916436016841317754583061380191747230887287413906846813572387271263401724256666243406543023174270892739972034964960892950232195479342727674236255810934669616927395105405495120354032805522235901744302652114914065541843582023127165485218198797531016281239603938941423265412884751318605209659056925528027068397558373793162925896094546008517998881347981085521276533928523476462058435477348752045)
    (by decide +kernel) e384_27

theorem e384_29 : Nat.Prime 1077203591226161342048036383538694846718716241996657547972254414025623749636381491752766112220607604088286104406600590488842051279743323730171133454719678773346131912883169406724123089848842832381787291647399147197360286093323149602406305340916167328449766345743004009872952514839528126070376918287182402701376676743620197226300442848712843737218371569280143703898505492883952166669097269559489840736314123648071390507576086691329765530510923303066661425066741 :=
  prime_of_ecCheck (a := 274174377959070018225211177920381261638070916812459553834479619412408549948900357398674377484721436576324964412870245394875870548580248927191774143316547673475926731789593193648035100933764147544909013458744927860207780807258778812821746251261520870761448185631963764114807139098940273484673027691977445404057518705612163028468864745728564139819599057245658176347484966940130384418403477742068533101035728482434445488961160826325865822691200878696619966111350)
    (x := 28279819713669865292251666946056005224438861032192767407034770683048904037737064543347896747430685992371884149804830780217916675524158628458343863643345797104584345634978788280059114573110190655327766293873133127825871189955020043394529173991306683598638204077560088246436382560035038724597240496417500299729300884104484405878815617196389658198021148975670966983073679998229637591103950698252541396662937083916133738748794205309250483941702090485037820578419)
    (y := 427979448523322941815614217306732681758571010267487790431493589186893020074878414410201234387415878351106806687993390297671309174273256365845441922473756057690327917096633235356768444318232396378683394252906528958636282714239729211230346099315321163588886256614495629963746058509629764695462506375873016479224527648162895584546618377077194709383997266112863780531572740767651316057266378979723167581472745232992121304583382472292145213799553125925708135228020)
    (by decide +kernel) e384_28

theorem e384_30 : Nat.Prime 3061865946368378243705471991227600063501346359874255736173571310342854244187946203792725676855458920822581812567769144286232505457193308880726091345754958039485671343788979166979908972807142921350726719688536454496011788402813721301069219040108288957014601833404284829368944200652746363667306430837162044838596649808093028436484216125645197942533185714355388839762350312693268236942855961901490024391144797283308364469617612440090725002997161605080210402680256233442722614349935890442753 :=
  prime_of_ecCheck (a := 0)
    (x := 2308819900084976383183252472910426406768422100712295531468254329486983152992897011479534163482545586096070385855167698195927730699428033355006407417404574082491408090940578681479514907374907575428086383376617413108039292748483507353963041056407911160430842363895662600138683266551875250112848624638489492217942749762324176705787451808784871723342963461633072762754695386461938538072604276624071423993655123956395603684531074959175550547212656760006798720939635185425325326359183562101367)
    (y := 256918588032860495672403428637209190848917733398232687059541047323313702711025142992187883085256691006539750161955471231418014828211889486190306575581806495504390255045230173739782040794949699426568617437995631852552840795842807415053256466658168466484314959130682254288470608145162383155166243945781168473813039245078760744968649972462891449481251281669730952540005766542833738612048825609306222940682672416351654603077642978471244547008906165070400325172372621247198474961990152177106)
    (by decide +kernel) e384_29

theorem e384_31 : Nat.Prime 3051328328768539871856098629550850548822768971986845925586746071823106762812544526929538904031095468621068252031367080857735940411653331922212846199156456825390826444091518472349297751320608896053725653542508717542300063639796661319677935706995479251737990074034150574815367821419359130172180264392306831434047010636316254009053075557856402864560676239742870109360258965283788038391561287603646140162000130763430171609325528284158862131072805942109456819837177709095652149041763874058953771256040980109 :=
  prime_of_ecCheck (a := 1867715513136339683766318442993719562180267904172814002185409163402393438806632016506111161683104013569037251775442749126225424551544841219627191300829410343140397948237017020808428532818819059161346521747967595067059524596556146804370946461246686359633986039030793387731786878312500716042422754710705334817898561576457725256600415865096277460292808970242110380513702791392501850560375812813202411613472920922120934443831422326568697841885160236627256686770393453695693886849930797027007176248358592458)
    (x := 408836434961620612829478169239106845821243003295195934830791975425677049506894324430337352272397403159712846616502926662423822744787736985988770460799972712070055796361967907985837466206538582714560764904550503571203546359563352134160027456088538586316078393226622572781698178642384307161976777012336122571666188237162089640842372836908173572951164717883363581265947953212089101723968581255009367392569253547452996478630350445344580967967942900829430939066954272104293201231957733136550876129922787197)
    (y := 1644096791141686019881100523918768312825236974706845748779202610397633252705981976853502379575913679739770164681759512505253654462741622593142312949205266981191963844389742675492966261941492812070767285849608437356606284832974482799119247657312434119175203348708735202046297395356044412980509099983905451811791251705730816630856403153616736354537130925313603315200540803701015347344084985754491763612302401828096151678359841006239111883631547020725349523870884819095524335310360575721465414201243101894)
    (by decide +kernel) e384_30

theorem e384_32 : Nat.Prime 240120384849618626999430183499895040540340152138705157928425288602391217457838181942620684617207767407608204065525006971551261281312111123150595337471150487967407722093258717669282466459406544613128430216256793095124361148648896317182992456541899577257639279460547322101968334258106199131832311287939041814499531253669368903819758927056399749394331725198856980833776283085738347820900123467196335511456683081840897900655834649037483836496225425970572554671346711768028718911657059127974609819308440053029856409338015713399 :=
  prime_of_ecCheck (a := 103401329359837960318148200711287430821070053294784370658651217045874930346966207237745055637254430632440363643566181352728657462587316955569751512402316227297342863241604991380299106836120479702288851098093522681109111647081401541713312579455678293830888916506782318153262277564411149612053134646300447826955936309536160828163202140057243995003806420436407988788730996343553578961875355580534215016448438006627962594044695205204946044176849623930698756518631530764855107129778583428850473429318424927299697496314574440099)
    (x := 54477843142889468913393011703086546272405942179982507017495258030912038669961477238188388480968179810920814538916658312581733847939353324380381335171767502931214399242750089097515102630892833462459257139052957241621913679906189860436496807267717243076024010172611341654270379408751439323828619967780681909340079867945951942087111193396563649961454412951668966380601472192314036507058082251346466955497558189103319941644203936073168950910648183365996460754092207276048419648464194745518047269601086475202311605549840760013)
    (y := 92675232543009949920062557312253800222373814529067155428971809492002934844909245612197796255182501109456954214655344298000711299529074233308680017375868278650651110676461859499824443904739919199646771491101567023681503243202488984451650278294468707488276396587343355662259358052831126172713788434298026815696983951864158241248791066858515259806091005076552538385971337492304540313984128102367433781672199309247477602903404389795744266985278606005394313274209381175380603513898230991466067325827863936822987904321107766691)
    (by decide +kernel) e384_31

theorem e384_33 : Nat.Prime 2653216926059536335794102459525990883456507789424606322277664241256700527818429233053863439421266015529394494457377009607599575467264457008187061562187281152698889546659996092937310058648994386140270282403029996179455225938728118315088792538829363978132059046822911366119847479898224256094580162344964622105471501194130235017720785364150939674388496708128784618254459811964209230713522851262816088575898650215989737091952563448060847583109185641097593118195988034055946399005113842643749439438186512302626850064689952711614687978596878994596883 :=
  prime_of_ecCheck (a := 1089516506386534825080172420017757650334493347134220414349570652842084544457865720165910443034512181887598494894451914538219177293651561798530435812518373500206481958165481008396631577876802229474773320321110972300164492150086665987639670199128571739174405881123568942535744956823559088041436990503700978144584448121408068473992516358674148709243357813669678489365503890858884190701736858593457500399863440886657548637590985036334435197237705857756173333524128008827104354059082104775401874254584379627313726333548790447651916081229206711702757)
    (x := 1680871293225428750363975956485903642602286853158743942627348775839734765387969149414809624910163761780680649709252689669886230487429184770580116201635759680394502026392318034035281324125799706290272273141130438630396140789470309281845994465054976665964536116235375494663181461809725706075734507332177188395824387125646136099504925072179252058472171501424575319803375776553954765758607233863684695623437445791172405435152579658016466245035959064923478424493568681425577866507286793615493828935354192910078979329054463097416143018844319562213096)
    (y := 2335632233648323852910615315572742592993665508296341514430122950266107318828990007652345110499727346943397084175356365426867105569191019578102873474061033403645565118092240538248001583885821601066588816607564072960884244376049979839504998237235506846581520096773399179319748385241283091110969235138438645908077085470165903389759696206768975337105448761555302631919987769330216666639071331289508358594482554799291150126972343019906030878749899039402818328582808023847776732232863820523171559543111428592987066775859223723433147382605603880316190)
    (by decide +kernel) e384_32

theorem e384_34 : Nat.Prime 25275457444079220260001739145424244023107572071323742095572407496086380794987086057209776988036709634045413820728644604896900655813873984234084406715711389212488920494461692592556344555266532403777412596998952297466565783168487508618513597874555435444612601437269833046156596696862775829525516758253231276753627398613772674159840582037165238242702573831627998301605511678883217292911648866825374573196671111518572443594738871950167619968221756324672939081240901800205525127105293768398624145990769515970913290417790635617709511410474213753962313625233751 :=
  prime_of_ecCheck (a := 25241118604796902129282570954730018732244973735733801015980848244145610936820909343518807489703743008231423182603359718165646761970451075961024237047490923267336003941049233188084372729594625132377661745937397058748889762033358135629201625760056219002405984892170358337868020922360774444617856040077062006121707552412587454641271086908878724247353682793853743208423739252223985668038095307473416212304817762630562108659107930590849041368140108432439632841849776776090228954930579279242597459746207943891353845624629608926068588596528306944147080976224790)
    (x := 17642530433148681291265745542375660322132000452216689685499631418232452837466051652377073902129303337186907435832072481914346813682359578773704650300908269158566327813025938844819500609864109371561668149800786998364680313316139654880874212463360962344324662060032854127156586795964266925159272686912053771796605297806526202770254489912798836170730408346383871498701777814051749300936531434565431628094071542809732671137818195357771434874353374266494981297287959380750919890566966421121086288541995524816059793983763532210177691880211121997819181404980801)
    (y := 9604929922251654020968886575139369815481250401654778831076535005688435767657329064201751000423871633228604888795954223432334765972970646227924780425406319634904095315190682659330328885597502226232776595902127223511728852892233991054374568327230455820510814552937662326073313007627064098595414546558909521786112887194629841955480681268124645977364045799122266020795121629069589658312140285861166419771707567077148907590569472476514899463285049940191625716497560853808126367571363548730074986621176722273224382440079418095530261935627362545179730784610545)
    (by decide +kernel) e384_33

theorem e384_35 : Nat.Prime 236645994627074189864692823060341515606024779773169302319631772643050539655228895899030777600574552519774681025645845540731508935274785860834793158984649993840596553646166105540782843484358302339666301596257553697491968660190151458704876274034544809773130066612096083194756398605203094724587634169194629643490956982970109618195275400601166031686352990465174349346978619675547705294782374626803712680556841445824232689262109306283822378775151764397101089961778801459880254383128085756472503938810213741697214990840235378503852493190498890684421214554161838109507 :=
  prime_of_ecCheck (a := 45109730756701571277887863018027589876834834740963918017832881911928306953560885082468299990197088664056765901542404621788080674204851751614581545042319648214549585719359582599044164687309273013443100240575565485105571353723717976598032714981178398743064473069213633707233476918704428956169013626626797783519052761094273576027462220538043566555946048162227286969281587474714702849983958356477261406852550217459929568386387933957921454469800522541198855206428556358409446406739165291262861259271617526127310000155767754002582334822876314619534689639073466843433)
    (x := 187583062470202667895954136247648083198380254206316957507631281470589207336621992005058449950842731834605275106438839921359713886708895033270751481341396854076716902556662472863679410167289742681670810712428272399881996266713007199942440346671032899164240171987081869934335208434435077995298165509250458178323747274464084596571881234767455198016786408453429684465190138058716081008750840494566610087011355050744192289972495523395949732725927210204319892370118470806421848520637980925567526878208936590093660502472362789418430257994521785134949588537008768335545)
    (y := 22302160084889895877358998205752079937794314259525016974069713710764806659912514437827202815368597585938116485700063609936063897546945005382626645837062615116647097954320717644047909853227975076709188827275031012520692945991332519498324024342253611059049985439455799364138222331448920922778657659734906317361347637928897379080822962069161304564731450427973299516598080667237760980276836884388860782671890624873745370646002647344051870146696738188414703631653622833485427196039045718117563266947602558012339528069461051768185889874780381550735110128724677545061)
    (by decide +kernel) e384_34

theorem e384_36 : Nat.Prime 254171223272509079393484171854461986113820887154216609078423098328990110189696863567099992155523456425386002831738976197729011604548662276470781665322004492884660070620326076257147015154125023274600509344450365734345529937722203100656009861802779964706653761383657136040013023393816085356437200294744721745162701349165663109800511443331826187788577581004787941754581355318955596940299545343056350299495321021168875303769953261548465905549845555328730105614268216969016277328915904638275901460018796318333975833761153646524832615833797686690362661200421873335002354396508456644250881 :=
  prime_of_ecCheck (a := 114316706444876696968403734280284373764610458784703183927087445250962255568754813001920897699703590948435326261369192007667143677670810171895383493634678695631243292451423611063899561474217048328307539000378874264938287916450464859952472513694021971752472050337285638934568040157491476679336441794038580838601037327384642039643437468574680293061409130358270024914263111345083342216780956534720852641721045937819864276407975290277294239202331761763423500331153168324977988133394747472969763110966229512558594356575364975625867703676128854483797670238970826394565790986723978558728511)
    (x := 38481738771437053016333302432640348506656780100237431746188343529720371255530383250049854980997840472765087734932644392048110612426124017861911387567478116158103757675195267066939672005391505172451679396335890026217606813272862854679949107036274880025110945221103766922177392038471535309075034102627652556195167509651664442824157776655674142228432220725282555358330990871225347162687150092096361725878079912222199659190558650110580590687631932704690131926064339402137303899488086918528580659921383454424034621494188439918072252262869387076723926913493559011002355680215481074680825)
    (y := 86104335922078537546679404244554623696842763704373353385327483716306691656256082748758334406488285395276115041753447550279822568034150746455307355743981092695761980181665027719851385665204390149001353836324529533691191035686685868460496668946474583457994399695121936386482187840763709891148475614650613999801641270904442564150137095181839677025408373091540613627973980903600508854344889800586720089976180532725419007202620726053407434961571858105731342480287260512302984517529646425093419614690193386528975804095439545452784162350266822993274846089323700523519725028986094489677000)
    (by decide +kernel) e384_35

theorem e384_37 : Nat.Prime 34344328293058241205370401032739457792964288650213570042701536920902334299812094390565765338999238148473698880525393823775573608526434836155640681413478915066484650146306291171764305034815952120635501489343221534924912389262448568683853810045160106554785464956896776413361886295125482496440047294322566735288909013393966862949358690318005005936779542762875367103734826634455899259884154613150360883891454968289854867866885288308938461318117582331176378754732882877673643622708714110881904253547001652904812164311163106249718238194479792037518894931514569652902087035657659520116346868536770232566224942019 :=
  prime_of_ecCheck (a := 21470172824422116048990242133125871140033020212910575292770523967917586331703700317090842507273036244453045515459308460152702415207025393977699063612725840211344094906128961639145707343028284377589125938123622692613246999290989638977117253213316954352655555602658473465887221526455415884787184424456381419356775915054350283937907151352217411627192715338450162905587792344674096266982237575572304406831123927210839937022835640139360641767919803986028410693447910017721536611208893207688432833983633169651147297911481729078942687361391285586850079666955397184308626066298411768046143110801149940429601904021)
    (x := 4017514044520281582239576501470559244835560857390998454620099295533408533985693756139770653904360510646193550817720948656502524746477537888754730801070112466056572823013671683942929632606617934009765852348259402502992914796292670867584742313545884473753945377763658667001296462993618488936249433565768391608254248368125765881203002739514077136972369476147207815811885769535332221730492614253744702849451892339146008741078052430216586855661974011888574444618166276287319589882371316125307560549109252126652794217165543153755399437660848339665587502659615307565715985412426751605045843516484773159739761481)
    (y := 26563597931583235439294217955803645628706493102352495313048118574052841454867758708690382893540285504793274193527200348995221436560929612637225640671741647072773861126768569802814304643656119716645721062279867379288764654849907922823284830711031466385255452590916355068528501240456802241673022030393520662058904461532666893876175918521786165119477808944704612650089723932483205950898485796260236361544534238221800561836746959712217745530079730301957693930573917796221979202054291439522832146944832012452393734846495427816683013894540606554021933986945543111897411215699182020023025299135048381653924359140)
    (by decide +kernel) e384_36

theorem e384_38 : Nat.Prime 365125333400396695288583686685719303626542583367685496205086704724141208287286306315025456797443900395160398292083874484252972249220129610323561274523544070774775732397938948636853579163667457049512692300150281187702330034961265723049201971657524061032488755549174874209309445153980741106656852608395866968718628630323776895011646043836779337550085485159369270933317100438492258087979624336524510584605693563537221214780519410785107608386322752380468524399403192903191286598623187153535314553102080790579431618344046996823417235056337074582444636736585006338471737221065072205763183928095394673452080646625060928075391741 :=
  prime_of_ecCheck (a := 151080275996860927891663391639555397581096162844298596497333976850122663572372569158076529689841928268840834275283356101274195962196494912734812508875884453504441864943977710089555263694718379984399243019555285867598604746476453531388471812296378298660346355567635251935834335203517970637151383253939178673248180140071830199676847616708711408921070755587032228608818070362455100032857297773519890689302502596064365970224022446092301880483708288414300032150126940146844648573384066327515577046745969230903251593959801959749469003341493528931726478252769692677284364584518284892826287820281011000448368082914242625073550047)
    (x := 134015283866936970453890658154020395332520229745018978529177091126423566755385246330308599607231464434434171041336600015693578205663260687524457940926411376471092533787715272238138943371349103932059047481166925142518891071297240461136534013081266319074993123349943243639573915356301005724871128875302096066993608773303136097251363062439441852523478447806978743174270223868242893026378332001128301299017970470466367798901308498968732870228515992510329336448641856145900953092389427842829498018408442067706731359112003161344061992158702855260800425329645155141813531697818241905476842922141835978285866209786870097292910330)
    (y := 218873159447594390805440448617303244775668213878459603579924948965752759762175648392664515905003063086546135945478311824524982842835354189343208058515650102052487281919831961418336606766546015245551064414795820628149573114506842891738479285463772570651021000556858008051343510079271228724842788316800498813661232240236764805111310066343258097153592004400413216670764577783085835363054565334938057002831610509224647407978740874011105946117934122503640499012673951998110246940804331014843259815831989989613613139061814407433557265331573788904596136983504203544812251544540553813862491578168957804787490913833410993030083403)
    (by decide +kernel) e384_37

theorem e384_39 : Nat.Prime 2794283772128286652982550834136968108396348917493889941333760344099307525086808474756521522212530680130743888790565269192671410148862476636206459847283555280012993901037572110383067577892765508771796187263729731838202169550164537093546713206535399821990525865166557810472120423420380036543639674382523613908748599499180173425884019992946634264625807921796953569033855151145538185653158282845281382311615090879415620417550913038175897206801058294106645180353624228934941883554170639056753573333395179406323773817070209980118895329734204611933596244540554902085488657102928989632036336442186014603737459557978954730321414681476811718094063553 :=
  prime_of_ecCheck (a := 2710858045150306038103039909030580601715723207054126641802152333356078820598195698255657445652548144083039328355493442550490942644053651180000910080253415428172971402378272754506498215372951665210989854486677561705213174280347649789091430331761553364636339153035701331315133717715014310087833982382036506842727741588047958397126027796202558219774744747996129875459423435872663136275032119523508774310712558516498986171412215374034709247357735911968222674663958314372574616606712286430706295888312462941982796666395084002078573450220024525624318560864907423267522106124426733679308775760858252950399592600027304731136176625216689169901644631)
    (x := 588843517489025440936632192529434696593057176145005979573828760103162719578397164553445742927388543506987620190290604097017516533516917875011919625299856076042234822841161480126554339319891628251525572153130513597672809365040960744557877329098679303986183887115110160283305540930125962174142227726026352002729117866542565436489380429681618734498315736127917658515560263235810089351423537258749153604567401569728939945617398701782888357997559039905404187853077159733438978606318001456077281407523767892940211443455899516654225216334276281385788705639037696374700197301140378475927138864985303822006034675090186148880335948664372926252777697)
    (y := 1209798973705940810757331993149026964569634583940647303629345412778952550357649388484923833169917851278487064456207569361108403284187500958683098798565321735943032892741643860809638215693112972015466970656383347000580466764702834871010136087723566508790397300925521824090316962662485162919275318547898102518017659329343234451410747341566786783295723066169215965376583242657164311802297925086798251885011901459579409568561297242011714020766733148757074772028946419577155035206532221119184057541866156329479951059926642848299947167569735780976088822220499673977812343174905054471102746480366719852151962715435770992264270695191129882600648601)
    (by decide +kernel) e384_38

theorem e384_40 : Nat.Prime 88585991944156304595581799520752066208323975449198586812002324519666878116759554440372726977343791967320352511033927478505744546549252378152586420277308338124560944047240835150943029557227028299536809423671153448921357830387451454562451620823350440353911826284197248028119171406171199347555311765563366894014831442270927091720132770102045125766840513569068014632118731437328786528177612819309917387920536562218717764980247080596357522765931633596388537918262810388867262377871926032505754480151693686672715805069065777888689368502352054955554548247623538634774637903455839187952525939940335144585373910960654651913936713797934409479626208188638519743 :=
  prime_of_ecCheck (a := 41140116407306334547887487764398797782636132691300284289066155674324435772659589564025905063673308658815045962066839636656485183482009621780074888757176543295386629873412633747435080613899399829212034059472521033637137968402096753819220497704393349613169522458225587874379623350521841477892731425155870603113237407271389987233033736464671373825745070360945801168309298556833311948296375024761478729641616863277775840686264930639005008932223328126000897770009198737033127916511767438133916367202910426402631979000666112611708682633967909069572846048203047250534867767114653497083196745663004834621017850296272413210227752925374031725857772550773076383)
    (x := 20949095318638922133157874308123319003721089371255936754456340554272828854638449666943068442854882615497247479767827274910968330101215081526344820997650558452052198558904918438932542385087609341213952583451386722629288444540634391842090372525311292716627309306929178978121706071142309666980599020124971776320438183030756716787679140508122177991379987120500479450145510498211354008820767851449032082818085867034054440489690429432184710348746513214554140222161857503710399962894627518680619880584479212531672872680007757840586569162612226439317747805541853300754564952301227661456750991243926465501799039229026437966293170524870059885147136712269892595)
    (y := 66759221289641291323150009329709897636685674015100724691208605315079926698692317126172546066815995635632715052008086186905475489253894781910277196081789943997761544851318755386754221551225039559375369899295698880700609595945538058007173720242811143742336589584909575266100775562715357995974859001182031728699544214709879504795836152826970792127309255347178577208321680634360871663352668297317776604406925259424177735427063281787919831015547079724839279236242828480938408466073179257485312688131783157023633261032572118651280557309388669598357235858752012896613333887495024259111234453127882762791732991897599381769325522665695419012006249085455016115)
    (by decide +kernel) e384_39

theorem e384_41 : Nat.Prime 19086411296321611228025315210228206693129439868110821768523031800439246066924275224005040540666854928061651609208014343462161947825103336852490399679403712373783573872778752211903818772393187578591888865744651070232983034010317482253964309025924731008930697572201455509082325023907843464383472384129115164414064243882997740544759606473915428686722652845598301720459168111339400249012046557004801577949938190142277929253343492981728540693543613089485835271358402947209791322622514262911048096096843085774566880302446651760592407046461453969918076961773740010577162604431290173329660614244027772346456206252284119896233679134613212218264856546879536622279032887 :=
  prime_of_ecCheck (a := 5392668844686085213042068646541406637854340811332525176099041312582280338147147836046161743497043708142594952478219354948328890206904262027301359890384132694953922116021668384311392296948288083336433880674962091419576748475801007189172606798699214510784583833450896647832060638171917096144227993980474088192632420623576054578386907668620096225254320895439455641995499431009291405308711197548365270426173380212015857625954275092169501681482321600281242916117772726376856074814858926493054309611987957029180584011727406711783197831016003664886162472844168877018910827188116876927097940118521968820226258179110774625871178536378734342104698084679254715300470845)
    (x := 1054181423016928290870640145514827200663353466075925115821150096697564298013408225649751531852279007800442630832273302182246177239536304890152325915544092634382463947562384475821457764142417354293886336309162242241601234569587099625131777925835673017322064817571682557103707458812679617255343326822152890162513819034444695888429220363258627808705953405627003517149725829983987828185171859467562878331396093503801909255256995816523343772332122991852556970895388523026295513884430035510731693590513535091633209855996010793598495226376710233898516376679788604511153123453560952875496924765491215169163835283947811815895894348918014356239561873669272912064967334)
    (y := 9770391870906034531161205385814810099874177449617791232709138257775212302914219483394455967544871450133982494445365842972576559173175966227289289026620363757801540926259639816267099297358892767563196350774409491683996977428092994251081190287043173410707504532271267037071441170494965584807872413022881767285897179266410846931602307640498558251364368922382353155420723001058912600054045346198461292127058804864185236907071063093784165076914682598309385932714226126601502708575633559251293281996807885338564981883595096312604129629342007030419912456301210188930391324261400403806900444081261473555621303460975355996503226230766819032156740498776875726770450032)
    (by decide +kernel) e384_40

theorem e384_42 : Nat.Prime 296783205650565289427739051208887763742622226275379876951610027608377274347574023970321856480513918113611746395118840170789716620466979455233465778312382066673545060133875794319340596176627233065597533784256231910945079250053999524594415554038881063495709667946262646749030347912931265775609070396479114686658415586980603708957374164051690505241596955038744598886767256728230724411687578372984282091636168943249720073211479516689985946622525331311679596394947771278621707295112899369869439431992549909177497324317403019780348427542279959585673458894235693431736147263681032574156286835398472170869073592766411295466884170010565811009885380310651968861826059557274630796719 :=
  prime_of_ecCheck (a := 94145351631790085086556861433238689657541435279408871007907960973192441565520781967260833943529070794851040190886002830047196580828760437289805696438547422900603343067963528341635542465015200507119155152217673837204453191204083354508888711955701460797222294753121689249291296415937887492386447577615683407945036624956099083646710966544286247528230322887601521867746588745155842832433189410840320959438581256749940226529441836463657640378817350838644317209875373849787669761650299881564171010017802076532217459359653389069470174430879099848619476634604566445011655073756506685873687307005993273649274304935740996707754370873605807709483574591668678415520876336904679574714)
    (x := 256080977256294434441394287154864654007408263208723527079077943987924937951384323994367643031975282007481993644878400223218071371746967793413682700967159476557814467081537896453684722015204202021079781029285108841473261274080706543659415062970408723317277016567926075464814944270547066326545757962029768608034961970080891973980990158542994283990954015915837568885788875479938258377723855220564388545999260228742601967519353462511751137673121643548540233440187281853020989721611206377459642637836171438872040596648958628008199819403558305638548764408887720577182344720212295281734608211293874086696026743458308193300789830384971910555708102167743564663997514850455675996391)
    (y := 129810697638889163648304102578861731142504956833024456472004189227735810745582305404271224499636020274542625927941953874384594137415814541238460748628430094616429837283829054592222088867424277724589611133957786789482312931287942307141760769581825218069149376570473893259595529059112275979818846262718894502684768234412552998345365299562638119896543850101511887180276575478827511379623493710326599351622628549394143727533728527912784667856821393222403673235473547600148202004117365976623579422474253907761219503764265757485181376309802159654584417319843816627238370779078203854689979757439537590764136777027649312986897107034550193511268701431275645324144095050201557619838)
    (by decide +kernel) e384_41

theorem e384_43 : Nat.Prime 46408049468818834410748708409499002332127272205803097888042541365452431319237863485010439559778282394270060858236590511977969172171528294710258267342172371472211916239186126993382013126865603942886908269840496206479463178045381332884477034464759354750611004407549783378720512781303740987258021501660595571338613646519326433675448618975439898717940777170207599694879254793809570398246540379575340740223204926924250937278113148340725234255272928783917581796325167050146204464648436531650112060648185226893094122754701546115666306692706529353402860218933504544872761655704371889530818971733990779529227757965555479354256071314060732457624279888077870076288087794124179266643051003392770953829 :=
  prime_of_ecCheck (a := 28448551038055134514833258069750326381631195859010262759937157891567016576130292026898564192794743313580193025704736758506893642710522604602969335300101940778676852976128881996884292811471771180677034499087066405055071379738409142579756100128053873384990576985681679701629966136066630293460866075182841808278453501085970656425913255542010450599920494126468051031778294900283099564039110491107637346436665540086715284943227581508244727074243575747313636777660480227021572687940657336407405226877221973430801518515256558469694681489453741212270289809513714769537830812731459525132907718001590861221862920809189101877364798496577907852587961000820786708743367930502925090547800854895353310102)
    (x := 8783254341822926872784566545295212140117570012498980947817472178483531097097875483145680824200335330369222616418006896385522483689741668009086244572982856062279279965258806346805006070462427263388591172707950800266507890345038785213510649702162486278855644156563161744538734532438414644037152222219175999701273669443494454425751204751088651923868137979328191968937376537796345802796723919389024837693455369870711016174732099179402707436277613767508599676777356111610651851795187531628990585429705839505462334003400590046347386881324122298768621641877416067634543653548228144490981226103647872781031541839361537404125059380845236008831761844987789991031689758147259874970442745004497404911)
    (y := 29211015301312557168855592348336062674233180506849856937107518394788521305967208915282443941227614334610447121508984993269401496410140431296769120347574705667335212350705358889943266267664491555745956385824063895348973764027867096503982650601411736760694617679014557280384098995184156928899495631873775013904320743901535054660344773128005138339896156698709532619553530961608722753432555439355025896567906836568769323011459402019615410448250098249068566133832323284306467901240735816383990901534132789439841682672878007478001880226824804019425741015244783115215104041441298671398521701223617391283070469745250340271416935592198606324969311709647744871303579620675079389327648664176292997957)
    (by decide +kernel) e384_42

theorem e384_44 : Nat.Prime 30208024700312475499434960698365778916461841770468061931367821075164853425935591254264157087039734212781776914128968958644556455737130646556688536674672891082918552868250371861842936027796897365420713233524323119171792642442716478661513813807734437238247089571431231125787328984780451497354348045295416467093877989133276439570694519592894425279676752025802461719608964893962795937399461990624676732605608382961907103291268103822153172279697336999560026981817900472490672098335001485392239592419766162889240248642646771223668998045649937989619059342510606490771227169978853054405264398655822283840599002748022287056584103504843664402094068395948131469383258157768882954488060077624928577206888837609335548628979 :=
  prime_of_ecCheck (a := 7155689092363987201691172362641932585705406376899967295830696633439886379147877019296500560063129727014778455667407517374898228983542381173975927856198824284551094070642026141114834292671475495937878687035222733485735770282394699810984154683073266779660321001630371417983788680117631227291331392228620895934094050070619406554916865403167420625933889920158470852790741667053857004217559368821214765212433698291830846610597783906878832885939147946120638686733386773647568320809635822288919690940302598932600458700779479862697703011696758056677761749661576446080385985801922297911813169343804425006681910420624280126927773131871184454895644641440323111393018688431832615953620279565015498265430769980285917611202)
    (x := 28049841336655979169038650844724026913411412551887573487042869227721089442641486465918035135090553048301466183064321861835793065650356347096079742031893339183530470355429835555286677089765628445439319989994026222014151447767479051600167968763647695001788327511831921879528479892696626703203981549258712223510074556295744598159819858899164121214005549936431734927759099785474055580402394424257854196435781648230529545684139711582887533323379288201020515306966662545732324910247820685337725725501934123609199570876515878519584489013853939316330790107424322464138732959524031922817952270452250578528624564315088815692324759718905110791499806497287713687409834202650198208532698785827817140278092115390114347562585)
    (y := 24168716067627278057358095193013509638711318837393698001453366842060566793069945443035426833759345444551388557113940998118167509680229315763078092318729748522673679571601535759331338376614206439394600312128396188854918455059111627555209057259467132856987605254068869207252455172670556097554242641814926787349270873493627622615635686830919334612411698904968182697347624283261091876162658774502261071168638256660512599863201176986293815415177581040233130957863254167783179786864003999419836086719386951729747887860442081986298056248707819659188991253601848433738102445086063907946511593093593773045425331513006702012084578670726028459285944274141201438431491419653074178068043964583775844106937022218274899205086)
    (by decide +kernel) e384_43

theorem e384_45 : Nat.Prime 1685411148790231259788114888688097598837229444753060200996060722104356928344733462815242247586151599189409206214958513604277644494819666388514454969476183084211360872914922357983291502449331727681908442656326309462161517811868468538047787611167736705490660839898550836623539537997713322095637084953506423521617319803794762818908231544854105442925657889806562694715443475636526460575224627130419369042570803774659692396831803794937884459249164996350548246809982327477145266586271035833372245909698702327181856875360461558230449540391916478133240595316486631244263578993547886637395431180075264687916888460834472605860965356361704747469450474193336140828944183582800656158756656921103199865531059171458083646003761346250183064121 :=
  prime_of_ecCheck (a := 1387621748260265680628628626512349080232738086124071519244669987060249782021509819200798017028581594098285635215572696924802395983826011228412612373318923433062265909482616124118347960086019185486635484099115120238591788715931143002469474088382012207003992406567714847877917524804837137548560040874991603358783202947988268958598762344763538130703966556043650917048691332889603770048107677750097084769937912061348265271663069191748831745608662730689599128973169528574124257722871317556424603232644711686654649572053180555097773207978219761367686011465008714406970572438345932783803541216245805697638498329057545351086214504741276226996255136827306919767938857235928714874536448344237848485828537683568598710216022558464868308055)
    (x := 341992571268171897586917024612850626225629665435323748999440856025982960697894129573094995971105495412563601603038459976186024762815387756186293384210365848462217113019871100484175389121673412631503777515501301277041283968242671050444667410448407537705407075777286660705533981222731375922363229472667732615933245957528926932594337440250102222638874986997874434287955076076277836432353585177474485147464711820944323793522902793380265063443384910381169841549907636865655343434279229349109260773731038182542253759880271378956735165154423682886910429936680748296761114040991561520796118200083208038119161979669115023479103519911022980131962045666186853409889908957938111841552618531177158950058171131796426743927141785356861474571)
    (y := 484785253422564537837115802902208296316746641568423833150579801321568071373564412706263685657353546047449443047371684991954918321579776153046368572353158488622462895581604863751498702931797612951032189307244432136611772398917992973756221514469816706084347279751120136015259956128232970623556170407960960970051716229805637675781074399462523464090869370685289682528071544785555898238058619888068642109272298758206623595003409412575630520075315395484250508380203087351056799281754080008767838311676848395252664691834064119862826170983095931122751897849440645661836688231447979495858998234940674025941516920242580889498417792776346274121193948203493178872028396051592448497101511092570318217900935244333744249084255032163376851087)
    (by decide +kernel) e384_44

theorem e384_46 : Nat.Prime 3732653300064257878777237210999222474968378283306960790008859696295257457297543420495919699649546284740160015750646463424269035457477223549692704337086291889759606420136865666849492804039797201528784966075654054710378807108631668595289854288266692447015121411659815171022913908220460196291213439903411959262979378209413855381584567756068142804034999410620152397134899056155163431878048733757120869446714367971924169665153245564241942270055570275578628404094687986992261703477110349832086819107778793173609247351507923715445785077416397064316825179218859310613087076772224985837201045073639486217076463725840157638836857218756212466362097459338029865682134565788780788753091425412622413229641267665680548426854992614836586650739417343807745713595242601 :=
  prime_of_ecCheck (a := 3317571662593699630521747946753577843733609921949206217079654684879746893657280877736464193668210232592438377397836038614182238247892505612146249324654000895060515844230366979626884218888918747473330434570603805699185941260553541599957367432088407545314795581571657020614016824401012750667689738232292629155254346415393263368024475556608175905445603567377094835865489957198052938486015856946944742814374652924861420201825958078326597626150718985461555822159990080294667342372771530641949005330802542646665085032690227205118342281277029898627862254327765854077736846826529782058713166567751183851491522932517549019196471600681630559876372933207962858589918071294540616941605763388153672332028519244949566309263845377512515182214137837520891478620813265)
    (x := 1060020254708218554364945269426337757782332765915988967012673700335066176391078133593617310830229275362438097011718129842108692007212704212207276949623403663716358375680094753374921259914568668094632593077735099744012050207046475130380777346131950680170952546008413290400184053470678126350125582238581337240101640454443809575079730898649096275110483142099291221210525519973483135810178175050919386247219190651177820601531481775078385270318457483869946358763990358604240631608892497748812875308960097324899938892315593740176438121984900910668873351331196013656459591750270705473689537946986746266308035697827012665855115192979149324728278979627338886032398707914537219749037163363606964749484606057046212800814543353555288012421293193670837945238686348)
    (y := 513152453551257143351692808099003875088526497403121964000751058428615414295845971203621561483769574343264417505657934528900577710927123409229394350739516996214174630858059424676713261718154274731992820426895677163791665863702936286097214290628564933617376124930301830545488453905176128729471908504544235137739657789013503901909540270278763139257325221569949140761948650439873553988161600658576843067108564487719853175813662327102641032438422564114329749936980379111312515871207084654675295890010433825111695486017010110195780640580849411579821096429847740641547622871718180732809687442261471411057970070194758510103969236378798107588491355161183311528840023362863718105962438252999730690922992653938443698495439023656920670855686452628521613511900117)
    (by decide +kernel) e384_45

theorem e384_47 : Nat.Prime 132022608753166920393507166543037260062520081752909068645182350633417557475212719759531275858966756945954216434437905145927257785129072018896321015161156954519901420198318918823350304637830598639682875015968639537918342348203833376626805004655493886362717720608709610111125270348214584979616325361758607770484044614687214037273551266730961855661009679504456052445977156344426214960950205072448466689642638445145178370869913652033549204660005768008349922010975615588809544358984640956302589705840097637684008280779462140241022988177709111161001765365825116455422962374775709866726961053428535092659137967105769471548049257845661306531079473963960649974362947502025595932779703559011185693760443824299915100508327599321339056032813058487000620885121026900825137590624153 :=
  prime_of_ecCheck (a := 75943345876918094146567530501294477462572987815467594285942757206064591001326335565045875526662706029947417738981567596431564300165015834926674867629488588221137039653834269781065552471644573018533535842736899863305111523417584019435799800115738419729136693627012746356807372128672815124331073744563066981302409130912353101676606798579427121252260624255297304075998566364370337107733697701797254792754894327934003408875859639398915297274587491689213529782141625184312797381834713120390148980330486921846564331419426160471817893474167305074979426577171483481591529635782864447654983756171589715527555546733933083119348598419702650865077129575562240437107552489630571446551026720574663584688326687833549907281445990066381044823952785554235393229044392671531775035916897)
    (x := 46813105800708078337648893930204115927840931394674256680798671578493915500902700216707500713315057002541168789516342003812912182421495598887122871964880488688406698881853331218199704208036817313672096317314189699331322578274092201060913539198447127001958564352328012605785971002657528163548598676028631873448184330361008470511582068813245248664572008686541181075023518777486450847894319964988662792193533671897259711472581113552985691669652469576537915748263353160235812770175026327233844494223841828648029430587172877990401344721172462054024551937639600121618205717148858027618268390477212199632828282690226886721194697255778351146732632667933106881687546920155075276576140126198441505256571398734404937584832890561626944671101247756871350246781291078518555610130298)
    (y := 91786792908138217978184027186169174022740901293519832344085335740297647189933874190777713521279115433812295561364121733722768419547898344607798011679699554475079214399877892653010210463591112256129926441786071365558250875122386893435458741207055124455313675625733393067507248893806558271009755219895020822012173534453600316405185452010977146159763964291879617309660497116981386650018914438119751221557499894047425554110027165397931219085348273562879078001807432507744542788884603902591701783317665423711104414975242427770253821861965042650780880833196968851648997906087730564232082432619791117851927542628772281842724642032201552586166388778177508506874515151639699261649501154905507119015958494209421574515549331738439523021108400904961094874597977438322868207969328)
    (by decide +kernel) e384_46

theorem e384_48 : Nat.Prime 2080973833854743137043638414811177543870414535604135169831538773187180802448627123528198789957648133512256648801912146416724276097668321564481148589956860917241694599920489099748596415968392436573455216738125563288147454366015712996316248326161676889838011545855526445889411619019559804952734906496543332145776855133273033522904097107328406209280162885370268671993567484783623725735118147091829776299505143469169287800111508468741824225738687838670143760543554061514559866471424272474415288082642984903839773097222353354877573393312476206307313867670443685999859611323975959991430572288760905677742609781850127471729877493472603722567951992573860064598736896579642793981453460893655793374345095514201255903201094648622525811812116751591446331935474884044408097269274508162547941461 :=
  prime_of_ecCheck (a := 425959638265342796825214708196564020546951305334250835835723258506816453612874988462771123799560244651756022469636671180207245072370421207308324517398011611865718631600489744126615349698649115321831945617475751250341116143818296592119308996028357304209841142865765641932604919470068771657831679187247071816865369809765988023139311754173838240811869283679872502971548817073152102253070820808105443505884367000925294569634605572703222316850768601160009197940168352667877863725256635107356901345460027940369617095137161570355306295974777809839856251551124254719172354437286065438985825844521162176443675350029617095519177302299165712583476851359879988260891500673841679923550571012625554377565095728164485185859334090802552362822827989097918631655949311399850830469777710502443343952)
    (x := 1566745243966591068950068388155056808800827234447706053713838646813130145046652800824963209268349754939233587845795633342867302199840234274326057080798875720994574161201166726204628068357257589636054256592865472864773484604117965768328634705089633528033903958969148571603874701883479457115935452106350789555712305625502673929615762296391383969500537844043319559431339163130412419207015555436482775909563772768361448394443114320406511661134845038627947492259102585624455985315761989018370982499685949393587210086281997690274053990028539723761434641755927636972296176846604958012345231946128111281861191861783621058773502115758839870776077548912341576208253293978862114229441092442493739185370293955911887513012791935466264110969735061092964136227430586519055970288951378381890245142)
    (y := 345627829984761844673664890080589571778292729212093107579947400043691598899405283312357883756500406406836102841553527420567562438040883420597944963421852608418472339054428095215692447701052298932541876889459931873846393843526191553621813626690892935589013540526374817893014687046574954358883778910829640032891728162275856825551515984572709570702865628109223115045497602818359362841186261323613020783075011634133016647326156230693517651402683274610191723484689430075054180739861029525488487951614341861229366689959768557993926434891258179032041374264154416525571504121474542869127380243784657293324035727248226856564661845829806039628177284027092840137306011874946198830090557347106961074122707269204872250381474135532257234571294280509877982899347799148010638822956068608786436747)
    (by decide +kernel) e384_47

theorem e384_49 : Nat.Prime 52702100295290563573137840009237705822201062570618825633386073024257626163945973904693992341041299716058156600252747229296716248648233732430686144514333162920039729753954931509101130514522972615396425621447795935036566391710314848489389443387637844953878520464769393410923458835099094576253233846845348998034311588057036665633710585974193051178710737664555844973889444107277256338236350041740228250120606929848817505253077012631103147228498547417500588293654756421870095387643297852316407400089361836591569552930479795771658811323683959229395153556723675228687160427516713737414501725344049055863380004027327979872451432135557811744147915225398128072555861810748851275417601927711154144280603827344908166309710283210451399918194349587513500963958625306954060075502988362486477639381843529 :=
  prime_of_ecCheck (a := 28757464631658565447629023650306012170554442913782240027038946392711088301498694053569457466263652086037777664632736693449662064297995089378616832217360162135945017440523836043201716983971163541151122778250157367188266971488057859710018431632497302478649067266397380961947782354232778673771273225224099648623935368862772598458578812612735156064195300903772962370722799342553286284062572236654149666021843150370656244382543678747425100122510271652904261898091804500874161920045590016083004057305409672935528114159421751930207901749872492250178016431479801369584657923371308368577657172703662774329874265393998134626373482135262138543827619463898889124390022693947872881735921478196135168258312886982828053972084020296317978853483850422788454539116253970594605730389220907402885864451967003)
    (x := 43747640613526191071205642454326508145068601374235522867178680772035820001998865106354738844012104283106276754436010626719675267320244098230335385964137539238384787188461476867811355239471053460005994331355371632225430629002946892327795188116518685243259637207134132403683654172023971745760785622311859129575746952117705713556356620129862689762434462337036643051600730075632151100124622468242255322434034476129730645011111320030290460148847974542463542237489883210213598126054998778012083148726941350028332763232832604603493897789026359628167874421369784825640552601819627447863993231922865268528879455627927347285292415352714232741506745040905235613434608381942788959639888983226455282224693488722134403933419551212495997148030669320186612688014087060565474429350419048421899143681476389)
    (y := 46294042174094837790559690451234954190149332970727332514345076852316517250781581750394490676587694420471743104079723721436875231579904715297437496382795378163773460989232160427826194446885737771373307542231201169496704471438219653792706681291867586407083760002886757925465237325523910940099525590843592876212768905061650665236355357905785472848938059656407847981485083024912781822970116450306402811704005897985826383077776922009894893562412949557733921877841250250959916283234692002408582963314393873289428256250137234442243474614742868931512086921988575965725122193805370455802866338939118687927286274174337287930386385974230161784482676454389963574234831336834749479617135930166804745524504063414908287652762991395210002840068653117011375938236165145269047840782432871246383638151188451)
    (by decide +kernel) e384_48

theorem e384_50 : Nat.Prime 52436918466178906984472136362899107620191785249996113176757057530716601248504493002273657851310277729797997489118747490044833490864822420721254546001053714643170802384886077523118643450728352532666525114805669622335457259776546191618806416709948484954631410115611612176189028965990125114757129210665750683599073550468520623512993580904709812793694698187325276645944750538828377549557941244471758862161497442144574788193849184760343358774807529097559080636995204784741921969241538081563276061847055655517138865322650018008949757045098007198924488301778585035117622192170066439781217125931480398710760609688510635617597969583368931716471147089955871148942492238452901499676073708854404186227307682455832465960350996036305935661812367666289286106046456058793272437657206758977145566557724834396753093871 :=
  prime_of_ecCheck (a := 4862346288060548155053552625345150841574243208130368508526778409502750170245533511486534250256981250734162472059979609767427977875815460017924460710646224707717128720260353597553182406638497625565927319988137251549475631861693443007550333422260540115591925053290082597508105816334831802650406663457134084679020736175254910873790512665876904418970395105960596318336488842396113310061998057553582566812835094842594864595973645511208396806410967594676750319021787496351185468180917096851888800507239998420747380207155078624738127181031756041546700610671856407025901788339825875719588070750678741373536170728027333397263198525280283338455068689811613213041114096702449753879377315546266734201431662725168573913623977248928222162626149292577976138223167381383975091704982280859452354295654303585147309509)
    (x := 48406855338408550818465288629964734459885143269582467813087100373087975540713057525332599845605755134008604628545446906484777949417838487535650369006373162196511932819443009421861646392339436138266709760418932604042651564097735954006360976758821139467128933848976194343455779411917883094612550417450324411727583630620990212538753428160989646094960934744496784382891156241955089148061306262405864312250882581332084422545357756928927524763209984988146793706560363779628585741798642050609288836873084841728024992342610882438186084410530707426011350916927379364027657813213029961086740110207097103932175447094122348073560673707133322755141876562366887017981264752140616124375438263804621823061377585770419741359540907631244531657319883287234347676192479035373994502240949898988292029237900102863437109195)
    (y := 26823139060438513483847372847112810068541514193404093590024073893984866421307170942987332244103659246168784445487728500579662680732289609032507743773606373943499318609288847118565597639055444182615890676895587746291122509017775179317087548106031126910203449051540599009412958508679176763032573828997879980241280861598956273684023491546903226768683597175078338196367273314741597478669886821420284151529642508990011492541650626378654814809421435384693157221536534547383281254256583369050576573003666455364733074523705229316804694998160042948465990075189832253105279843063994016813436570097859583190103316136192745023710942667195771389324710816417068864954304304122163175939254808489694878549000025885782766605002979197208407890974311454979824933328193720490757812686774102389700223666204729053973055034)
    (by decide +kernel) e384_49

theorem e384_51 : Nat.Prime 37320954198392746557511845849634363316072909411872358629349888934865691964898727056754731639341989623767993651929230710463354362869965493911148858652602960849841276766796160398567993662508615712251012253223196643139626163229391109233948900368179990171002290837289310539965105680478634742988648951671740066913310417611735417633214677834099567414562724388214112809856580273375590567535648300898507170845633955915726990782180546013718327957835897961401253770245587117614277002718909196643204708665484387034956336223314923575166736749655090432787094690671586163832356941270175705329494524464499523955401443372149719789261275046540268647736884694548954206087299076363304147069221146113199565751547962153524908344372581195800309058974160358602285024864974516977223035930653419819130607600179346868521834461543838411 :=
  prime_of_ecCheck (a := 26784950295934310670176840388091211367881627697290144473303558971774500402639132917874353020664784697499867054575445194239692216381100224426170087333391894942901252788156899711220355662982572703631161832285626938540135023460121121088827368548708079870393814628529347836535737546654117916343372487276852035124041256348751541591474598502926754849643652974528358653676352062101494777905513214029428659856714445450023182056880204056392993341118008910988508450336506845145090853998718965575902046155601352516616490251772766796202145809317328779840820190001430218077415692335275213424641612429926718065860197818955951712910046511500387117711733628772070461919328888522050199011443979005948537679681558224423914164486023030886897320515601644997932979504144085824831781751734979542354064503687549644498890981153815982)
    (x := 11357250504818964350648561618569922819181458941502511064379811585373663565708755480445925431129998660192926934799946986374035945202317279252102854401899438997381527440265145354577738326715164017827046408295149163945143188782958826792987963841118775074996280481225282669325131234322186723486121183923983901096821233195796068264585749217585309521831540026455761241987021404509176023824906297880944977585133263294338127185765889341024124231060057592871305963791250788999886434830678975682677529076929481618516445775504143929139998329867023611961789909723808185893726547530528807607653427988070509488083755106114991770682897617668500071001438086803504682890958303525673349490562484147244115083780317077807098585621930376731881933653679660184625449695131273872780920817260469147293437283362369282392049575866682931)
    (y := 17216789887981926998279681936641770345301520385267990894245967923012623026336670325577762707040458382133255077196212537907675979591961263874398422389652343090522013746214187513981626725644779162578805764925019682171275942949291322965626910638706661805420250056060891034795430257549038474014505460897585876626977601518224962417141724064418713853049395624933549469998698844496312351247106984646675146222211625351169370308962681538670950943531811697628658830797352957904010036014657392152331001035000339210093074730552947681525465520524569861912855597581885018488063264062882965873914906600373822900118924437226609954579536444965071042446633837033348203790227981222222987983827673234838472306599786321022224432468588113872075610961168576477099588444892217233935971646795061590743490553084980199480764554893682538)
    (by decide +kernel) e384_50

theorem e384_52 : Nat.Prime 646861340262411368809217944640935365252925581209902789490775189984176670658042865150642374178583667358409496314799219812570555503015640687058097755168192303390957531516688041630148702620781104986377559582143857309313981312882014516080378413043947010041912142963499269020490623359667758971732913283636519303433807424592668482803328717526346099990931987217362745472698084592321656305044117887295226828424843656866837761352780588657749164028460956977881738741616818873537008087516041942972044526950318568068858902958425247133034991298613617522467803604953405102918858407318739611882178238401788369835445639649200584321288315883253682805274544994007831213592115449409343411423101607355872242044896242456916569964264107984089651392223110976443740197665354348145345161575705935064303383018707153951175356627625344034053583971822469 :=
  prime_of_ecCheck (a := 0)
    (x := 216486751593548576717613788510877481003227484784521150414452617588873224628364629350514627212023965743565514635657556952453896320791961866932993857520406600409037703506897314132737711532306554460842393020424321594246112098533280789163783108674934585573445429229194254033297358334188859073826328619848220613373250028334100282951939772671030034416293099404825092471240608082722293553259616859239129960411371344239020314036323685652254834487631948459001024095764123785363991887747808002723926083545341853503675688020614836859920755090607757221924316425709377555339774825092506212403424443954305233324050575878769878134570001387266092969666162726637886817787807541222306396344025069296686322852424096723143086952017181566550184517359108367174311136284837805846887866585996524642527107381863332038526489338846250315005230671477905)
    (y := 398238252571046048922973665400484121559068562151002566546056880759734391026893125561533816830890057744225480817719730650229636752491894064653921666711864508621244077940249797247507499674202094911496290760882427860722097997958731093118437295681450171333494337265575453377942228864159168019401899597470330207554248652495073618143961013285412680436435898019489468912858744051205303770985975688027492281647661097148053022800398808862241102504861342602819428576674982863550092027559372831169843936454071203431520176292489065065433682949914880116445302493749405673196278172984311760722865994174381371378597644083858214317547627979290444919192975957563814211800989257206853530420932843355911238925270891869092485516042371573709600748404144829646329067056018407519823553415963593961484809718591758584732446552001440248016948971955966)
    (by decide +kernel) e384_51

theorem e384_53 : Nat.Prime 814641895407143099513301429055165847374238837280631552647902016849635511656402849204307576903859421296502291868148015511841355724357750905782653131862506774428231112870834504736976810919175016473096406980399674702294008672777495048878943390156882892115758821295387611937319976538940820598688812689503616482624608958251623529985964290873242235784228917455127953190425217690815078044808962687285082213793053186519403381768483565122549017267751774950669123425851906165503845824776184933077148818875037666658012459827277462693098893937533917682530276141888007707582772794555298517702210706789916935780397352785102628331462047885444707598138464758525483670499420365743238198426855108105202956464041989964963559922886992571796334710099391145013205013276693382396764730002730815251136837195657721848308613032203381468489614368330943553961275387 :=
  prime_of_ecCheck (a := 524191885621848389031142737022468359025455803451012132200206412778853858440282665729601205894538267306584881356871196801286829052034708080914812626757102303227155435271619546700304130334115371774239288179016964287344236819618952428474495254097912952005357908509333851736762676123655056035044927772860923434932580101226164049390818719473240378189252113501135318235864541328913597367442714977289756269693336674426756195826913673342693665410411699442063125645356002264898356216639661846434588885918326623748100016803539650592718064698595228469736129045571283582623319328339748593663864774225744784078372877536781447548679279927105879055487902604224273217661175663546584633415146816656062292554437281960330653473880362023008333788506120117161146353321558000078757990134054859966501523950352896645427177857396207550921370811723387166859968182)
    (x := 672823727221080783112941405225360775726351193705453263878159785784854433488503450417750499142773651554827147772438063924481256543333851001397159502648927836592040818370329291099429345791286042499267864841343838898530874088540081385237657074099716299630506847993746350916542685277393517204895118492530247284734183868492717916115379057941822135944319956421139235313111289139371255738722819086569649371294746868445437830433061002165513638158703495205048219903528361813010378150255679958449366801687044156075878791489536501528692238451301271667404281591717732709036874637509636571285714702995920076698257750707727462051009394716006389846322548318752963453643477320951182789474770510965304714073396378640314552755762116595939130471923457328363334138749889177992906472912988538144300431647278581148802109661669317358585712294042054590338602405)
    (y := 380015264834368544683760425522387192348806146192393801407729494809820278337790360616182556713764404900824116313316843224455190282168092691613741432830396061291483315009980690197853955647498403448285048143017559955566149671900426375711914160283700331973107820715044834684259735017757981793935805619808386844408753171000851460045841900920080547972332491962106703540512108363964604139075637044433017628354155375877434425683661787407241147765501108189566607599168301079364972183391572430059857812772678777940483913999052810160025711276993424398266025303403327318408299107263942618837853244908374039369732404707236315358212544371309157452194180804914233684774499697865046167683590026033854028075545063443747264515968417503122183737774839009605132646269093908516261952315191403530559137165660057979013214762430129457883624151869068704754978690)
    (by decide +kernel) e384_52

theorem e384_54 : Nat.Prime 72273413622592046112667053895919474054164303692236719405646365962721772988177869105761386359091643616367754380151462149340364128489834320985358038653063101593032179362758542675973961979471291051304627437556274208955994287400226627093762061406961264065525376300496385982166045534457928651814693439705955789219416652540709289514504002775654887847666041426885153496823216153608557144784209121399548639178112791182616273674894972115235759818824225988293242254965547614320044324479050179316350338467789406053182597794334750916308015171001080796536939787248730720074711302522783419553895319317333832200806932150047618110569841571428125777259312561215862861248143357182378956082826658600109673311668406955763645114367448388074748529257036844576817921080024222467134289369085450552881661175513600789891750128273143553405109660100940798403094074730796310699017 :=
  prime_of_ecCheck (a := 12835030230012629431403815476617259869444201249041168340889723639249003905851939795650740231812343092046797345183988053407574892094412386518398238298749697325732956001235727119851943545599588264492696046242641256772411323015048753349575282407913013544656327994178111355212320191741923188494822976941730455514462930070113107354400603050149288765423459452565116066228577249855961700715286323703061250315854975570452483108196380142153956377321355786375834358822504640250978263497248234954473787266425991770098676021005469799047334719781252078052414586857891126702610811917917207844874073937245615314979320874178688586863693328286684938704164834080629399658433272464270759905336970528063570980656655414537193997811531729982788828260738829165089944931862321099936449396071932294832463833522669055347567202290416811964824164571844806930514179140443225669063)
    (x := 10372166547659355150849456396731109563475470858628532182865115369399019875776909216794058698832587809091999376189130853968574747523537623611518615299183286742218685541171989423295833873773337354270718660202213600020944045246610214248655827790310692603510191288086920895805409620672519248622524495680014485831853865314864771742474259410353191305075100115437242854564210379262630883733550996942511149991731467622676092278440284458131195998699109947659227674084496604740035077492729126745704622991112657748304360807838708990786679663164585476917520002593794866728722572651571358733225118934951753529156054218948608504516471913276905197122984979470094546831289653795320479591336010886299355792541908216947316085740996896171345065078950350519656297219310128948185249682299624980472788628597258435899078110348725368930790085242128574758583632967517398946179)
    (y := 21509041865765057993243612334297860142145078223507984300339607870156852777226492943060928658441155871470748771246831067777808552515432082462082268808701094735662556031750498144643129149240077185068635016022337264449161779621148625868171620777605300600070496811388051701749761641911070921131995341273344820796389941212859227926912250554760416427550712134443307578886886791377842163546558456019273761754022149232980069964135531537017919489923450397157424630173750312003937546640709521677006527706805261203623337087674525618108135539335958209592426115614542090520017277281768687044690187660104508908200393626228335675002047500280118054035714585044864747721863909232557371649554694159550876739049043501985455816587488968811908971886533780229618749443926195245438471907367694604027771301177657323325155121767223610787513248001985182805239956761267063773551)
    (by decide +kernel) e384_53

theorem e384_55 : Nat.Prime 370687743190441767173238969116991654256343616900269546664013294148217110373731717957388440880481974698509272943887784344936572195182527709403413461914066387004335037804205378341114746640520877817584008072983216252538506004680026379021784778197849363321909929856451159838809064815286353820245307083928986304176384032433563779033421016703051553055637707830446253816694304949579573568129216361991515448447193606710167013990223903841038541528571116911827410627195019927156068624496553676504194878732108609839970023362031654382068112909212492512890155658410523839062576961969079523190307193863898658908047905324565160779737246236053974580204508037160586201768052791199220967293378379307342460521034175205065357232539264062911288042700380261365552787698327092777230227102952222802019812647983410135024833599423815757216845574228539082138326888372387692144830197936219131308671 :=
  prime_of_ecCheck (a := 117480654124422176002718805998185791212391223190103927479950775323902027178896633875357055278997957443808884117079448959144024830046863682642572776732722908447917343538590836338847889571974689286786557718353812849577034497548884013279839026406358310863066532604922505241934407194602132031674647521706037249374599678096905022016070658612110352034169858030352691130389780862338054161173213187871791938281407225344159894469637834762753752564059992325811101920738701621072621431071441100332138549845187396440915636873652645725648106666819085888819803099728902746771775784990808131966387230894695444825043261935164477034993523590809076877095881347286955081396259029236474103239773353146774380999989226649780297535490075033672428277692017038070491231342280450166003078327263717791881029108666539957823458983927162246848491676997302715561697723608042853332533367612591822547572)
    (x := 205112391642178215715586673292915888838598323856192499797075993298292581810414068903007502662381837743031610893590192147881624669865781572432344518013969284449308366430494982848858197218705857138410443004853947755558197708066377745396708080371366848183495340765755816000110996543864500126015668834955980713642542844814946568264473104842747678324903155897338231185127094184269948848074299471217357346032079874958918820996538914090718000283087858348982184877787558399453587246362608248725856697418637326074939654161025989882591469074942760274138020397362286788858387264827277665670831564002239960532935917103920671620364660012795210998826618285933006474925002536231166488667836651803363597969083665271482126989549868491156342815902963146553088128661404619203847867585891226427979600627981935942202484739166445564323294870891178229335016526348177071595753663447865239612306)
    (y := 313247095289930991935731125372594861460803197789254043814593516778051682599608133046773477856954715943470593706312847909306255443482421507094602723748783525930729770679266340905663768935437994509322949972158444875681246408671800863185385033275974689415569655836975631173409565145470191148607153004797806187688263780161550981761479990333792489865054502109251574003537614038296024108887992467131728924875230264571837245387282438874988429163106169143617275651890835215163190074458470384642822712588308707419106900314740515185902030664179135440346973668788701141871929916271004814463136806446698922954683230507295575660075235626380642955769844605146735313973786404775659951533192294546496244011974134723611842191835713539501903938799028681024980302858011274579427759802411722909008943893288955007875849848692487367877651847261266190846933628012669900056259767941214362995307)
    (by decide +kernel) e384_54

theorem e384_56 : Nat.Prime 13396912703952857141713218462295511605723131899223848793799326606157328794620085067897170434125874588624738057987727822624905884545229422792850168826271735693882274979528760076406371852448814350389657054401624966000358746524660006424183359926669601315546269924604388135775763558605401932608205850526147604071314551936689939544450641674596993418565275734763040556126360165089176241513777085940666588609269792590781460122698116489450692796733003895338582209859054798857823633545227748154401316620468621441801885548045762376047028354640540481873164468058341211973478370196897249347883516355388300386557341470613293614841490068601160560786070135207443523968875698542265234137011734351028710289121004828670703785578425873612083020254145110369291477038805301315242754592319392916128975691530339282150816986953775377589109467446674705703421476434694217982340282498059808731216962081555781 :=
  prime_of_ecCheck (a := 5646766769046107443715740251392558200270283174758720135813997674504911014071269293848605050036427536390493541889960584600854298458009995023316938500741507636245026126921576419165923122690917722055930605089306355619828257495393466728368640935864037234459693189420354586089847283900890345604777170116340563726639891610276662270177085893564734328509788289580645943806637523817355674212199799824205556576796799012138586711110079314273010018756927134011215871060260396815428487924327509494989284097379681584148031272334205640235531272110306941422351630114953259978912495631731581852917182138566613981962235820097581940620002799772808754619345073827257909884949683824273254752572134230134043869904663299236294241008362901794417955036513590775004832732647298601455209738816295129409330657774366010347140889089091989136266167636660400488291275246665093489087728828204157525059260056842356)
    (x := 13391851483972417845263852375040716670170314330068640343216557682442473736164542083793395647636131660537306302449953272090005120902678016096686582054026820000647638700612853570021679101429301811846586243450058996651750085464556347054504412878135455649476439879730510769719352039685322502686933371463628975050688859922093069501651368489141456784730535982589302766808470538121569277173463642134083214605223321807074529837596624521456950696333093153338550339982997387053169545302718198167845273892035814786921010444953720752738553007118235894822135759927547833265219606999667382681471117219586786343118989945229415597841779048834550890489803440194647306415450223700430108118796257726815313783837750871165996540326123869346102338469121436496238989284626153033788366714553597244033219335542875433320893107707266640767048869087405547049152362730780336107800855889419150270511625912536693)
    (y := 4539401517003057237720943244069093168720255761784174791510576208866694078446538390658496344601936134097863486452611270311626311663785901493025183549118825217301346251804019322775059135512362525525405796570405479141482168428994827586473006296156718033723056177480867957844514329721061449883779755136910762111128493360077972253526154451073057116698383478568987314616287614631300901581741159604070170214346227466678816257339056898661042191843901498801793561652979968922955628693438172973766228747241885776689305002454809170303095469121852653287506929503137852241791301572101143060908584619692231511845487017395604215339562921660833106613373262476044709672929289903563302530786506386217061164846238534633407052623122284812126750886275811365554327572834432776096121888884486270973938716633282101628810277497738828814188329629789178946899745410588560962321342799025474246681424238412634)
    (by decide +kernel) e384_55

theorem e384_57 : Nat.Prime 178819015021924516744979144620316835820621705131517669708471430128502488080029886106730721282401999558339140459013709877425854976152315375041785968044175378674956315133283510842178487637245170792310852015965738246209642865824585782425602556152087337034625336027907430779915003097437119959519954495106973913530109511567926335869121379006772458317486425984671207920364148457441195142144830531995266411748306756089621332082434720699053852564839620759460924188842367325568746925380801305834986854603666351599198262800437756500266699772947218853564398946213707384693451923634606812507541602575989925800270895898365702093662938353860543745239969373141161504919589125137260989326206767119459795106741542788300924870386710417743769761548827366641197757383026749715840333314298395817195031022901526173509851962964145934537881613792557492659287556005391227815841037979365737061443551501672916887826580412724320693 :=
  prime_of_ecCheck (a := 165513564646502102652187604426716577227194498433606288860159563847840174507159558412234436289725079249405297264172308002177602771610149649488753279363305904907009979501111593801668799894560900329567780179360773157702584763732081128648430307163222717638177026518198476052737478150106382788344558744960102591834369581369830197588764367285433879795139627127043881268881884916739276478914240643672256495058906624903855703014916873853049552996159667190053607431622541889071183750866195804074395642074057686654473865854125617991143186636191555438165339952108073609663579019979278056452425608507648283601904774967454587739274187056000079555285233577590843379926050037021192455770303398699384862622461870961918821222972911878029623980601116953317425462902944737501499397492329525311238826194168404231120352267206035203608350474201149788376192940518809858671308147674308554782150466472401456875389787719524709111)
    (x := 48090682229952397167222773826980943877523914269897149043267241549370681624519583041265274133562710004614199427455271009077232013141896133163964440517545118834681549446984373864256962014739513798189278707132082426282624994206602394028485091581015072439833872532980798692490956018716545687944722028939340669820309815960212064646226774333390861316453766336166576927290645190992959173386901601182316991848526759867418142565533980543660578015894238558443730720618965476643343751000309001690988153715892139119364605374537054753501947398626293572993241122968383574615643874003964051171453761894631924189826643611444778729925505762767725498599873715894128498861142270202247615489515853878562413987892561500405569886720823043711673174893841058457861563919973606292990511199272135548344914083845608614005475789650093564876331587233412281674343386367103541822736798719830888427497554003401381509686424391097084838)
    (y := 144973405872135096927195371355031371583520575754303718974402365895436640015909125015855855803812317111583799830419525875024551186640202387371832329431851308694566183908557704798393025398139319268729605555349465853042104406687713603801897345100545928351529987432961450207495523279581892782925713372411486140556114955881955909132535574007123913005354425114715526345587109126970920868237907027408566921215983228683655399112407870041666251901978902609911158387793843225528070543298837573753999726444115203488677890600732555141858472701162258692299844728645238719978197574502438399074248769619929850813883488842912135886434638958387751786863142637637096191174398892964544309191056841316871544844591653072256964685283324611152212994198028710016431285389977738703916319506156902859488072918256860164901996328422361244984996395973353870831662592508138625715558969149362376297549550182158955328852323659162706549)
    (by decide +kernel) e384_56

theorem prime_size_384 : Nat.Prime (2 ^ 3072 + 813) :=
  prime_of_ecCheck (a := 5415964447829828851967717019871118084762289783380477454962777638792441280186608986110379392842713780742364052943532301100518000998824132818348084517544846856104798463149912189959269869737063101402591857123361915639951810276931434477990930494356024711369093648790040084547672377728740367824104202852795847798936228880308362055289392772020518727124867484974220897911819539188734420502478826519222432613110373571319139930782426251715571472093135007191702874361202461046196837714901800169972547938635600305793542075818033339581000899697894944013312347546311272570223742374674647367162488932762126314121649086972775080344225972716594122343719902361721315650560598351072962970927290256835802399837856027664255539541281635676107171455115550150477129956919930471199193779707815909906594982804447355526966636860465867676437096142947043439084495630091717487628105076075966442996934827970277377560166593047517738600038018179950574527897)
    (x := 3958305135003374348177793824881479617231308618374186002927863963570834809625802045779312059758391558426760873276465744597162462775764933241507453102434875850438242566640159294338127827530796921074943114451253765156835826168588086575674198421502611740423978234932121260910382030632498945360430098371054316341552327578213080194060315709094900789799741660465009762553795702096518754853714033467754083729999736435360246427710015478840627073511797909162980072058955047469772667561025046978407370318986512968457372811432020871478809370668306103348302460304807575079299930265766070798499867781509244051749540204703809641253025683237108644425902358426033460637696908600733062652970931840039616700670987607800317225303094826347728496832985363873693482691324642679732561271372948372938135585646724664027337312153177058886372324760760486604476940110220281724182556966692743515018131251155282329949624902038366585500951307467041236148185)
    (y := 3695903177926696512289509970120974422307198760474690303224533203150534429258409268351816632711536956597192860803154173679438625680661096140285865869445453549223644829212691244755821920129712397648247954015486407097973187661126738501641235222464625227701515902345768554491541058660396022599766135607464684713656023900983456949101010077457052813866586647995369848943650087122929009936574322889246676884444965891697838540650215640358147485218839294096594133277888740714103115535168958473051684994140950087170747141251813742707477597875895094984279700223957591608108800893401537435617364344454568824458333084202899686482749313457845604517588181899829282972466586853290548651579352729843866444347802202785871872184084767635780297576178234174900141244012693352515566534803709376322250182912303226462835527167283270600885260011814083136251783206333510830027465535175715721670912917844231162660194912218787848845568987178606749450560)
    (by decide +kernel) e384_57

end Aiootp.Primes
