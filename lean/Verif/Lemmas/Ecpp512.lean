import Verif.Lemmas.Ecpp
import Verif.Lemmas.Pocklington

/-
Generated: certificates for the prime that the permutations of 512 bytes use (aiootp/_constants/datasets.py:45-369) and for the primes that it rests on.
The arguments of `prime_of_ecCheck` are the coefficient of a curve, and the coordinates of a point and its order; those of `prime_of_check` are rows of a prime factor of the predecessor, its exponent and a base.
-/

-- one after the other, to save memory
set_option Elab.async false

namespace Aiootp.Primes

theorem e512_p7 : Nat.Prime 7 := prime_of_small (by decide +kernel)

theorem e512_p28813 : Nat.Prime 28813 :=
  prime_of_check (rows := [(7, 4, 2)]) (by decide +kernel)
    (List.forall_mem_cons.2 ⟨e512_p7, List.forall_mem_nil _⟩)

theorem e512_p13657363 : Nat.Prime 13657363 :=
  prime_of_check (rows := [(28813, 1, 2)]) (by decide +kernel)
    (List.forall_mem_cons.2 ⟨e512_p28813, List.forall_mem_nil _⟩)

theorem e512_p757 : Nat.Prime 757 := prime_of_small (by decide +kernel)

theorem e512_p13627 : Nat.Prime 13627 :=
  prime_of_check (rows := [(757, 1, 2)]) (by decide +kernel)
    (List.forall_mem_cons.2 ⟨e512_p757, List.forall_mem_nil _⟩)

theorem e512_p872129 : Nat.Prime 872129 :=
  prime_of_check (rows := [(13627, 1, 2)]) (by decide +kernel)
    (List.forall_mem_cons.2 ⟨e512_p13627, List.forall_mem_nil _⟩)

theorem e512_p1429317880299241 : Nat.Prime 1429317880299241 :=
  prime_of_check (rows := [(13657363, 1, 2), (872129, 1, 2)]) (by decide +kernel)
    (List.forall_mem_cons.2 ⟨e512_p13657363, List.forall_mem_cons.2 ⟨e512_p872129, List.forall_mem_nil _⟩⟩)

theorem e512_1 : Nat.Prime 140296092615554136781544027 :=
  prime_of_ecCheck (a := 111309869242384572790283115)
    (x := 115475014994525518826279469)
    (y := 66173109683492397049427551)
    (by decide +kernel) e512_p1429317880299241

theorem e512_2 : Nat.Prime 21208849673799017361248540660622154124628653 :=
  prime_of_ecCheck (a := 4395998358000828256328565335193326349810791)
    (x := 15590379123525849971751566940506595344569331)
    (y := 5956005759991499762646300384328324292264042)
    (by decide +kernel) e512_1

theorem e512_3 : Nat.Prime 8202235825276480854150114147232754454274046000418503 :=
  prime_of_ecCheck (a := 3127138470904528005180534563943796625701471091268394)
    (x := 4585306265617198994929857262609902828663747286681881)
    (y := 3071276810045354755551098738056124286364622178770525)
    (by decide +kernel) e512_2

theorem e512_4 : Nat.Prime 938166100653606930426927867357678687081498452770930814076480448109 :=
  prime_of_ecCheck (a := 305986552275078300438192972097517713284854889979556152357595059803)
    (x := 507965137846376484690654950015216720534083274616930328206880282656)
    (y := 604670163752311349907453397159881387647616341229656594273805480588)
    (by decide +kernel) e512_3

theorem e512_5 : Nat.Prime 8182607422315825031204771859775124535250954464579798378744517585857961674328049803 :=
  prime_of_ecCheck (a := 4764630378323700116336489618778714326839929144724267838177472189220908718293041696)
    (x := 4213017668807087421788223004901290288269840603773958792520143511379876257970730428)
    (y := 1179972681452160867590356016838939307852845548707165256162721432264692118954949562)
    (by decide +kernel) e512_4

theorem e512_6 : Nat.Prime 19916535028088662502707144888099020630097016197724359302467665587622690104034757106945509465225741 :=
  prime_of_ecCheck (a := 13147280358089815566926514197425620716919998733436212966302839417772721576951570411030370054360609)
    (x := 5855742739528918805796277570490569374730974976114835514517107270602717427160435729035670953890989)
    (y := 2910701860523983601078144025194593476722894554768748160470301165842815597519219090624502308077147)
    (by decide +kernel) e512_5

theorem e512_7 : Nat.Prime 6171085137636563728692494759971564896819933910569008275609117020932329941735954494808056408569448622285850265251 :=
  prime_of_ecCheck (a := 5664178352045314171899665674665133911449296983436181819795189854900762494297780880259896260357175039746543276126)
    (x := 1215528641083995526457185116486629258921860459749337312716264856298211324413757069166979779162045718496942591422)
    (y := 3503491114306690765820788520589493976753371747832433715968624329668075995337382947798509939597011835338051135780)
    (by decide +kernel) e512_6

theorem e512_8 : Nat.Prime 1037559990373457373585761269038057715737221844558307464190501299320316052566574718129000546143094405233925662386876505524881855147 :=
  prime_of_ecCheck (a := 340642079059735531217832983098845319091469916425044588451909984077876737723376863957836184855959936955202371411655942533114436612)
    (x := 641312507623746890483452252654250182659387037393830125986932935394345254267501111785607976733242019241231885095343956879972478367)
    (y := 883818324714499989613082595420858860558352752954873518398876315638816111345415418592417999870863302072032058714473227553218542338)
    (by decide +kernel) e512_7

theorem e512_9 : Nat.Prime 142823929346064611495730419765595684292606620644746947576145614161749505866795632256723311400575543417285299414739278344441838124268717636967729 :=
  prime_of_ecCheck (a := 97181566103472667670506446184364403446695785395804966446118149910827987489463933536675263987026977851500933297656422950816970704014274506821600)
    (x := 88113410935254260775295734887358361742226126548375346177571970778650751642442651914840077725596336403111363398218506589107807728496484843186665)
    (y := 13589091203191869580665652197932116601890874461582503526760131952817277912114575292690294912139825082868052486986724112764044555202973210978606)
    (by decide +kernel) e512_8

theorem e512_10 : Nat.Prime 88139936375353254652962912226574549658689543006034116181220941812385324459615784646301261857662518580261918288716251019691891143543069305802893374090320106747352591 :=
  prime_of_ecCheck (a := 60986737067560445518394363233766603830098413119607295773852670851488023658174754881671938563573836299637029326927902301196701218701970772883798632018450471999459420)
    (x := 4541310320287017422006139806765585673937512513105525462543037018304766535434019194033970904862535850643154124702983946977343851556118996102055923088000095293247835)
    (y := 65818015289779167207089598499233035809108160794132327570301753406894276569052362590077972384323832232296634571654403613492674056179202843380620664986721603961904511)
    (by decide +kernel) e512_9

theorem e512_11 : Nat.Prime 17002391250848078570840433659584105630845499025826340607812439321088874001626512110966294962963943443301264495900496276762864545588139082300042959013101022735487021515695344635675051 :=
  prime_of_ecCheck (a := 13526854108434659638151327900898957803688351080935454415389625262493651836603679041238795598432721925401437391154096224925442819623574030424401229122609567293497119928664525047845522)
    (x := 12696510478021579549275988829934577858090110659211388707162153236336740221199795967641211269718397498381628580381187823944041854217119055948718503684742644038284847057964486450991958)
    (y := 5670368118184657655324516889526658624687217970608617287962672652415584281272125985389306655181902474099095772778553161284644541717818404432292373852896942178796859908340246992138568)
    (by decide +kernel) e512_10

theorem e512_12 : Nat.Prime 781015753585605689878844859250768227359673255211668249086989596733865331168087449661083468067145758090279148307880322800261235190431161940443122334713093154884398743853081535976364714169824527906890170571 :=
  prime_of_ecCheck (a := 591374205680095510781731753285352338563184571145528786605670808684763777843388257480320739782913209976506091537631044419085704803407762514793776607496734444638062113605200155863539793410924996851216047617)
    (x := 163928493006398444943919980821711982257116894047641340139733720533474078989698045268944512645192462246849217179563991133638581657808743786501008898752936052787542138566900748053954346421008124532496888934)
    (y := 166334964573638167715265832295589185530849558820599957436018655073740427779158747269811565773305015352146380349203890181658468529163771406411719605445307174082612888177651309637344929332041073448983773638)
    (by decide +kernel) e512_11

theorem e512_13 : Nat.Prime 1809613954046985463100583668614048348237934800935923355902139366086332077958350698355451198939988200439716405280968757214518855986508327317322615770803356439307021799080965419371979236715901572278780058784547542587 :=
  prime_of_ecCheck (a := 1497560145699614740236487442307238601121390889333048173223725157214392173345686894560365127525395425967723709361019761225913003211937153110767391752269453760851320585087598087946052734625899086857202236708290314886)
    (x := 1339966447480988277543324054924894306893328813926269508384571148716737464960895982127156758877143210036812330622338574240241596101888673846311098439881690119966764583500824349678463305140077963575827037539371030551)
    (y := 223478586851120209040791262432819968695533400279205767259641617758646088366159751087226483156127328761299193957579072172554414236011791536495575948090375364871364848916686691279910705481545980492007122498878186669)
    (by decide +kernel) e512_12

theorem e512_14 : Nat.Prime 16906695998921698208878663235041476648323998649018365904423819616545702971552487483051869992406972759943238323157877400717227310506997477372533254572385529556215588721991524729589040458433762939690416951475028996512139331808363567628963 :=
  prime_of_ecCheck (a := 597096038957152374204115043132722879926986732872385115348012224741835713091882061175061810724686715209670652963223175295635961035301234363463598275767837083872709139513821164350180401219798928040249262089916638474892277832785272474477)
    (x := 4413911209127940371027910526638772366680861915078840445453920271585087378901636050889011990644488418883821201842775930569423568632308419636843437870468249269288066625534061326700539583420823917345623822938725664330358511104004109282770)
    (y := 16698438357060632897518670446172932823338557116428901002780838410061807822980550472366796064759737441399269409125258007543452436298616724940566995353367080336100901007242025586111846783178296470665000999672083442797939224260511157464233)
    (by decide +kernel) e512_13

theorem e512_15 : Nat.Prime 5801878827382946299159703501701296352974875942910647214730487024768609088823331000047403358703725087397513389310278392703443188021710572740441965025417080349704641730991022786206537214883514963764258792189714899207216477877950764438180098924240992329879857149 :=
  prime_of_ecCheck (a := 1716584855236116913051050971482232950625077253731072161482199069132823793607763949867656211628358486748305441608763463905899131178699887015309182517031223144553080927344636832037366336847410120049619697056622180575404834305080705399669035973972628852127320461)
    (x := 2502146345332885069590092907699502098532540881512596172351281854025628223474841319300992491470048597729932695971524150047078071849090153618940638113151425042054320380900750961532653774931191427944326564994718785767491769385252112040041384786482435353766045424)
    (y := 3617153733923504163458403895414275098302096141432519560058656674848856604374364307542229233164155972654926131266777230376873557769233458600551197261742917549587353348668580729853274587213956154824787408470076246683633011689538045056221237009891172262773160792)
    (by decide +kernel) e512_14

theorem e512_16 : Nat.Prime 54140481876181863090728742558767706290184346608957122831326498811118808706943676900455717771881625844140729451139864833048852779544483087715214007958046869366912291351186492774385743339388038523827791265258958223257575767098572505179103553578703459621307401085663637931532773 :=
  prime_of_ecCheck (a := 5951449717286965053637766941027386059655315623162303763424603549197904067232494433739919485998913873694090170962271918575029048318242375460682545623622301207269481291446620500580212526656541014236138376189145529598160360392221153123195652065729348299739432519825025723075422)
    (x := 162773908346609331644846629473452532986372464473909322311662721706543952027797885197431404105792517277891675252281924339482328292707933753148472637722748776626455633668279999136419981813576785531539864658143648319584435808134375134413700812158470441505515346027081425384837)
    (y := 43106237295063740396089659066501005958829089550556863538946929187777600457556794590215229638459159169003129405676088432061165600694758115528469586569291651067427268007520064814465822217916457053128957636528693270891507363818871230328991647732486355274571937015594695658706504)
    (by decide +kernel) e512_15

theorem e512_17 : Nat.Prime 331591472058427878992970325395189541979029742245499487941852178232005976331568523546860724496808565244487671758256009962548214501928414577808929714975769245385319118975241635998130777426001599463524629925442758344275887175728780995126781134059682358513235537661015258781171226794327023 :=
  prime_of_ecCheck (a := 74710730100747068161643341843339140349035888574378678990736381093632959065035277253333588423259726089439537791308894103156944360402320720680292011397107447217393686035489544856629720990582729332285001993620970765877840692164728294598325352678194153219537289889717749085197077990110508)
    (x := 97253786697094477567788652979625371973787620152007084863134564515345693940052688856673197799415498565934318511953837403593197186078420043975441272739717301628333807868378720881855341114226266830979831843742346828315566447558037998123420464263869993597096761532260152630656099013230663)
    (y := 12551528863156418153897304440248813846377461781804546558605884728454742176859470151869282227992912070105026173255095980082970918726322872512424900384782507228930861423067622878201847712434443759153494926397984693556590722857476776012333797567545983525653382599312880188251344373388595)
    (by decide +kernel) e512_16

theorem e512_18 : Nat.Prime 838165590418772310895297823626046751122672634472023493257066194334906705097793028763677324871293377302194401418429382918198142241828140923563511806413189260470663450145161090877606039313736922515454177312082373293942321396549501679419056391285068786597380766331481821454807783345093239649454581937 :=
  prime_of_ecCheck (a := 305713666577589764589432213601474317446076794535720661006071124637542719953891513589852878159476561341179669131014594174995208226732620117352667919291934558216381499420064775185595874693639062446012770666882158673582568544046175318895619583830577585595271626550098131256921744016313891042819215866)
    (x := 374760295668211945259603311573098592950920087681408510428754547688335644545468514936131329689096906112972979827905926119204041532947935906015641958922936734179163362772506599893006413152773787692879684959677755290845061716098344539670230702298932143870703446215530821659586536388491442514173201818)
    (y := 36589164878774259217470219245430472776711534209202383319428187649254278435547131631860996372451895828029518518731069907724499285983867685049333542103912132229676604668126217964866564028125846622325952718534008218417273040583180323198968925847561356315150514384011182053290844577806617118026044603)
    (by decide +kernel) e512_17

theorem e512_19 : Nat.Prime 67522692601644175555181791416533165008422929619909821423201324512760752321449503893883146870213523910104794268767637930096652470306894904246460908488093616137151302664009312216000635200240899605947845972939550230450395360030362215477786998994294066430714268967477492569514616970660542467295068352603131422233963 :=
  prime_of_ecCheck (a := 29009148758069210157602121109159681258351623889526970475666683582290367584591198738876514620445839305026826614014023988088872432199948617596871695470754519697949067907745617849426505786692857248578443791014034624742853973832218665606106492675417795750428845901504059887572065511321154777711908956722594671268021)
    (x := 45878391846478436205145236098766339494673643879205417110073690594839949468238195727076461600857098908519873665306007221849879478191351821138796579017586087632877429252753553966692306716924000770046041070221684482522831740317094814246166936066773352191911870886100564934875172884528168353365786728337921747342191)
    (y := 44160476790767045678370501391424418589774211184396153975615617002000997638671773050254938138055262559823477023336588325855583218653291269560405299525339753980313021100252357142089835105930370048620379640872194768266470328262890530222102307064952436385682329060314974678151532705022888099815629096440328362571905)
    (by decide +kernel) e512_18

theorem e512_20 : Nat.Prime 28747128325021148032095843213522827693627222321413219103027673085510006307348631872230654213996187200732269095060337885148877703852106346564410557899145742872114113005591799358527535905477452844191877064937436785003041132405065404697553320492441818302481681307501931779806295085673451692643261599204363670782615071936402048819947 :=
  prime_of_ecCheck (a := 26485206706980771896868611334220978210576561925304218141791641175050406117130174616026430576911282849675370079860851686180753285194342922621135359339374664404594580359635299365125258328039809080458866288836349595179269698145535039621692105364778123444668026084013077652236828186344175169453486476738680691924948231975963856443832)
    (x := 7791933456819337142670373316176025391067589310671923829084591552617702201945635668670883820529638428414472074037543163821444868899222814838161196705296293239244633954464478959206224651921327366430455408859774019932716599081430683505381572946715241940823394801415340928441320758623944179526899969912824223330842138301206550826678)
    (y := 23694075666596233702900054311012951040556125575162869329921762691841447146737761581468766477575886044092477341467495242269468108565826635477274836979490718211377687249467976931564185070575266855237327700478397976750315231055475841567157841964400396873083681457882866215616823075475095729811727188321786298151802684543505638332620)
    (by decide +kernel) e512_19

theorem e512_21 : Nat.Prime 148243299563976917909572870422479046295846558748948097298961387654082871665518551091530928398550125924565979141302872667253986284166619111001839311182077020666855868176408769581250994586545737350990368984448395418367344093569854596474183675843784497241166885361528815158597559056704864078365021316742987410180542066255281966875785606538226546626898011 :=
  prime_of_ecCheck (a := 1871493044991780059586014414727838136169139974422041138821245757905581285632524770367792490724222227849057075343031055156155264400556359405741752376470613258993808956559088543232541000671252485342579803375926994463849695570541247691461960620288688869158411825489347860227096283937108352914904594447131367147350771619161606197818073844441596566187986)
    (x := 100311920559771191980914887712006076550061685437002607124266020671692488582702914942402581311247167945610753760681626731036919183774047023798211365114058606107185214043219080784797482141470270665895940195470291359880879233148942409411352691710047052354746923455550490412763787601294099364323737612137616362948530351833800254087661984507774719296876300)
    (y := 85271648924107066165555027835853731165108278205383758185560480667950873470552031109861216455043012155886911754315205669197944040469752790760180742439588886174040928535576102974429009741898088096381718935867438203805581074474832953738043448275551252927036091179789810527385223258768391203250819135700641968353146535421088500369070005951070221309826689)
    (by decide +kernel) e512_20

theorem e512_22 : Nat.Prime 59771148713458013229381772120735603438119488303304073841287049072392776832273562710531752247132125502367287595277524139080455849389253709285606402992638879954219663496521828061789308145889227282031143128056578338193842947016148529237705303933220084875009527409144777000321021303151889566532261240631746015883273059361491635632725815754046241284614066877997675169 :=
  prime_of_ecCheck (a := 9326854155220352547072811683992588653868563292371417322057403028119310953661515589850873361469882574665661031326712523027204695998086761321658965393242110174740665796816768814973808641110090370414533113176961414508817840841853850783923024681504959966001235538005573198168961250171577928705325928138894235756760786560889311528873693703642644813866240207996369209)
    (x := 54229153880036494086340602497835171374208204028230102582251686211726488898716305530001781650904084825421369803147783239746081237483185579700692955237467984818364441830269046156106766869565609181090832905797983366237445689229541521552297612166241210583228638018180287852336934737759256198161675608425087388521873450830327887436685835364782519527076616328702042785)
    (y := 38453562730617061921384451211222015773808007165925713590804189921756984713734167174774417166008395328739672928006539535997803012913930535341105145639889428437799035470971358697245265617837283717368827501958966401339417008117181205972930128392996966929343778253049292056628743852093434581054839018280856608566992627887679877529624552175127969024400102964499690172)
    (by decide +kernel) e512_21

theorem e512_23 : Nat.Prime 474192898501528152680764793729688745934246737098596888523505230643026463657298652985340427560942219999381011754125168087733039609613929459719712346115837623888694921996187479747369804054957524416977445376013955147962972633014563515703387003020574352770172693293307514215470411857359195020431121614470602071225526075141508477900405671615692919564430926232167460778568260739124676729909129 :=
  prime_of_ecCheck (a := 452519959442418592906210299887768010918842433156880953052336242288381882234073684536628161931258469635814856196673412730502179387364869602950129352731065969079156784026931509505937849296826328508954213949061008870923169859503656355428975851420232082072174301760058371267760368488131256074894961302919053238175641882091481389811695061714759998615372997908546534264293048344134743518434820)
    (x := 363605734403708622950941806011047087620043600956883790794845464976492446566929560795524510977283831512627162789592914254487442275279521972212818151292049533299952941848041594945490825638252850905046936177468943921472851060494765069583326850167424997429300267348852773956642478684563004026866081757954585997910369524837746167731407153183531434295364415141836212588743052686577950418401548)
    (y := 138821737929176901249276638927045334551012904630192541336953859696481457939805053842832222083192721651672781891815836547411581920726121358875057469684394362644741018891310898985351487300525105680836961560809876426701722276012485029532606881551563414685279534887149693366969257301804959405837271058564733862315336598793522191865949708329132891325276915209137573797415796390423469090653082)
    (by decide +kernel) e512_22

theorem e512_24 : Nat.Prime 110654435307627047967244870909616599962080187601745235493886054083319118082343207300357938351754631553554018676623305208227775263664831014920238007977591133154970240869565269812894673492556138277948487033943837753779273076477162780760959406657241980933782165799378873498892742433101149289536690731676351023661651049707061779423088923108636951428502505448773902930463376667372734234691890543737674382809 :=
  prime_of_ecCheck (a := 44801448760115443149061741589376854581855445586119662184368515120825879798834830268592559157100242945426862156887996786113587238292204118488041865355388178482849214320006420789580867849249992574634658224432075737707806088940814691750043111514706272835103987457086736954130388549390021106438113558518274257280305325804440746582956591445222764960448978319079642562818446170596426590537503390336996164281)
    (x := 43731353884098447242858499161304740995629102943273481852887498305674436461666080215663580962088056378670619691419631906151706440556387811619804716913584537213848785102701867373566503625566162540361326429987554918252329349984533948463780333317454890919238217601938042208994104296300759485476191099410552727243915747968839750560095111722021420212081405086761040439554742663826755511834538136180028746231)
    (y := 25304789684352861876647308205423491571844137199385742921243588761199773323861457968904566046437010298973472246132925113008425092255380749815585738366047923583889726916665054388831348008477233626169359869586957060834351784693173290090101479187173983805124874237779223431533341704623121716839508622347085302706588093675398091949676155982956076071335893930747270161291519226485430231393158130654061794981)
    (by decide +kernel) e512_23

theorem e512_25 : Nat.Prime 4099322443048311692010874098622281210632014981808845321270700322669657411052892003421670271456962237495357886543398330642628627316485299096606296666074653594527628620855473304627568414673480740612339846509625776399068466507913881562353639900830270695229671281640619673887502210253559638831694427835411314249990402522784625924936399358176969560586088812691171903282495740227254561875985794586601964398224103504577 :=
  prime_of_ecCheck (a := 293277370420828984897133245760088670770023905297848072699245284651651755438193409047439422245822206683945414752777442359952755800827900227334941543369228036526016054216590704131571157145903160835280658372216634156661712517763693738698113430855304985421690628511662132783853608502713823408616472574926424344892731118040998293138343741576636077949335978042666169070142036637182082489401191028075149443883732238827)
    (x := 1770162354555876650562192790630589834816254326966003722534540784425269797006581571077916921739608209586582867526987757992189541127378917865818291979255082006250752664744030848780254561745693284067786857359688364331973929989958676512323116837955143392652665537171381071340240542609115317790495116325722309444244842341202802364340816155218886690195855946863619477495533661206542193431986773277099714028701658712734)
    (y := 3580872976928198180564490472847941801625560773678437338415899648238071280264774029445881365841240339308147821839712915341105648406379556955688155851732290681859064821788356920321996470635113232999992042097193448943765566063144532266631572530624878312606381903095270492848647594853058556226887750222555409011405208389386473963476931168609616733712444302660327263835696332889946722769104097553320678997559891267283)
    (by decide +kernel) e512_24

theorem e512_26 : Nat.Prime 17935809006630340207201422943228160126590965025066488149529394694564681751690081819361593341404743732502962902514377807303822692509062081330227981932583174132662713222730302468265429581608945819036760300868017526965284021941431236142865002225400245706045320129469723353739473832021538935111312665316202749363468521733749167596074393410401112466322648432448194080355678298347644443047000840057337275127655653858246920042632691990569 :=
  prime_of_ecCheck (a := 2600246475114526962744612509195833293959223227023284013231230866768290885126009938183094585037282254477290783949502494400279726223674289073781811802140057377473587745218475339561955615687181774163729784487968285565431799592324221274345093974490770226156293964657295398342224498346026468969501174202166599475336001218694135902363419920664951740165735724885848607708025414373550881723855066099443995178541374521824319931208890984394)
    (x := 2961013933137982135607780847363054705881686944330046440280606355273059897131101099532536429960523471709492326039850964220764415617638219834989072126282359758783100827783669692740533763185141043389598902116081881381661248053302581033824173005856157127835111900482692205881900889400931682171624847731603067364295313211396489515612063728310879036678324333233496916820258406564469072346926802454386604143417196345106601332747200673703)
    (y := 17837011833793980400484803259080542689052445258086805497826462161282094513483548560352356790805871834617299340269295946589612695488465081131014148521469373800989444414501280506664227753511880689092499863769175862540905157380810870556561331606373638391761408446238443955343409674421802484133761906878033870228531082795879312373579209135679126824501822418987460014434172737671645082734796343404567802156940376225984929458679996475202)
    (by decide +kernel) e512_25

theorem e512_27 : Nat.Prime 47190976176292347509575683993258805599742946320525792922709132840490300758524835594645601558971373581635129065234815142387395796878446704533536004300180908125584364392790467855096100618352405509566443572229996540535278374333147767368846892850803240968623976405855854225807956037990330589028273613980205434315855264219627052375746260181269090172901075406370191461801429783985720609312198478912476633907028273565917218137366449506544291323403340344430693 :=
  prime_of_ecCheck (a := 37023681020046799028681144831444328461114848230807324013975498445970865964119285024037364806727132176753495999073575706295614971287474495494385804203936683168666631915422675423555007077601505225564674521388465730220828050903284853468896735968166404870230552290743434163139386771470067309277067192951992637806757862984897780566765800072403252898223744184477857801259303343413787072856316705818461265269608929021920176412536554441342432073247888192965847)
    (x := 22248213472030484583868741119263985324323076413722865770721486895688524679221375878929559671005043437050869865361503137618524362556719877952285846164590543510451184214621847374601747005016198040543216745458695577962820196973132082455625911946888394180761163184640528247662244395516897329183149864823852440282790277356155267402666098393161207249985364725525006065856156376620340041593958039568437431236929176666500411356733000434166686738924873025691074)
    (y := 9613664255797672203971802643018524915875755379496578572202311688331112896164167609990355851238569285698495480180169934006546186403185418924878957965456574670000930003694153479916740801272832604581459034343264480192931322276216008769539187235732675563407234536635590585581525734740583181972984880367444251433454114131480575270702421419087339759356256235067200006169460808691326858249072727550887926616474336937434705515600089778824090138229360511185537)
    (by decide +kernel) e512_26

theorem e512_28 : Nat.Prime 3125910725053915702162248721692056086324592687957624768682960866853101185858179393674185660736829920105508456249723634238569441010315683832458091329520873541096119627730375986728495808997360003410603427368416830714352463306217193510421254213710935786997692129275688840296847703153648949014055446414514279353062799318328412815827850984075867664964131235403951912272962188952284617766644353031799676967904743321291554643479588336521831843022987151605749188692756175519371 :=
  prime_of_ecCheck (a := 447663689149203111577743640407526103939362749699728090033280873084720078877818240096575000142545824072263817558760557525690743046928378495427428155890737551594948679682449222820222089947635821186180034245614330196753483894892822779395788396569323624513170800615845496888874461947248170456094056989777792672369393373909728735268866834920245622867487240532066245421254919894601657764194032094590785125230950333717173968066197530111240447349592066244196937966975857753971)
    (x := 1262496587829277286953596956979192228558939536131559642743714766922465013372722397931086305915346396548007087648286551983344282397984443631614521270603122332858381957474581569063499767475339158109323958939543478247171834550016988985681649742990134210864427358180729620813994617037011450303702737840487589857054475296685684897595443086391007414843233259197508281241140473333725504295658065760723672684844377443895736687447365060429501851909022488289008510079951708286327)
    (y := 1589806315525786642550865215094565092313941317372100463490890873798792012111728036297113838096622946889005032987857567515710215507603012364441732042679357020772210029513043575427604070798840373619917440177137117951680812547390022060098713998469187343243899066713200858757251042640551616941035980061536800482426004964113797616705165376179572360757274068865507863649888371330734379104396406062513101500182589157655941831831501214417274443148493895951762139315729713354635)
    (by decide +kernel) e512_27

theorem e512_29 : Nat.Prime 3808224429875529624160474653280735960120163364090809651487208657438981976507050772487210518390312652224087458960272784562080765222569134389384333457560247036400335548655903597263816843954915797882657904965098583503055189364468134318216213966424375055618899665641376709516459344295457151690911456406835352799508580648801299435474636455824112015895927823636978170866312140472346477197232949414288353833389478810342484383402926987350834657932683136702617590730562355315708029506509588079207 :=
  prime_of_ecCheck (a := 963617828400990331231041829774076606018266894198134486637131239249621967467302158796544395306945352964348138393525708383126644405494017330948437648707269481067057543476694882523281252955418171508222920997427222737552295040087537880075167762522882951298212046264193157446166868123328318795380561101067412804010394031578656400036778078744389748296226856692327851225845802002477374545331164781132526896495799647486409205572508647195315301613033865697517333104585953451273299584098469001346)
    (x := 2029167649473096389362253001673674298096708722060109357899241311472674995048147208362374285843755617507265935462043916477378896536750912076418586106966333252663594330623856939828628509883821257914655020805790099279742225985384522330619171027536297616640051424007803877933583756062258215792020323146531396424456665228819272692406608253960327763243199295802108008251981346148169053119015811372698456774160213195378777326644382448381568436234247577851120512008180963418493287276725205287942)
    (y := 332901438076257161819427203435355575215724561744998133217919944495934522784460597132150732411389509284728732281960246873234467455782254906077445682372199056104886592802701466961641276769146690615035228137522192756783224997594351511565729826423919433046165205110706390603269621946543947679989595476913962729394080659895737705995105196505980541185255957140515264444469469864629378204615809621785945703848157894765123954781415066076100447147538762830997644477370558675257738864364922118900)
    (by decide +kernel) e512_28

theorem e512_30 : Nat.Prime 616018677563548357790985181735448351873127141550576552454795035979091869853297533925270625766492683736242358869963659480821450554411386157055032828873422347472673192857932991106080707926285218599741289210015008824821518250685079349273729959696373348011409130306567207441168169701082928149515181661406822674780482947633778790544009674411571007272687067281100082984641884345376975069009980181111740752089983386357323652846962430678863603305641976732457449388805323102205293238839586584296588403034332131 :=
  prime_of_ecCheck (a := 442771374033939993932253991573086930932699585192020660826916794656413099631792167367143328063865857018216325434188151878892758141679992344423894043573096854948430222164351559316687636734957303513452276792023527775651287080936089059165336564110952646374000163624147677289296258864017830957019806354510926758736744069317051978961486060828958853442734356887999330191386793333871627384612730990450970256839857353544502145797135036101702894373211180115847762411445895341921778696249157165755687337742390884)
    (x := 273556502222243066685905267773270944770483752892842972020730167120397004109822369449118910570156460091227220645282886827832886515907384473766879851870420492636128870095289520672955300878174192645746272045774080928691184629194300871794793824199946922636757802454923362515221379013802267923970390322513459800268467290721390567326227768512874094891983060063480317989758531322236885349671154008189012888589658757394630279408625266706132045719349563734149746696505942440900713104155719649695749005521097541)
    (y := 129116430000689047782852946176974227970712744604492986003252142776612556374794375540138460197064825383547634773161096560458974197359320278515554189839093170632771900061075300458187314000326113157150200477915817033864841172131584604652670490440194289535813761433068861941785801791549652376784899352901997198750882678649033180450654744481518489636997262738355558976386981890578151405100235283492134567674929893628543722263952053913563642483696760406699475343908018937177247536225766277620637728061523218)
    (by decide +kernel) e512_29

theorem e512_31 : Nat.Prime 1878950936819710143769790045032451504302592013159660172556020287265693990840366960075475354871285465679311095359566037929178218186773463167081929271715761230444599392579869311744949522582397809630505617812777758780720708762698838128923571655876695265877975343926812400760268190902548196837953712052380361439459178647061738975943170161863374299357248401301509011747105126370194769770748629471105494731931198396222538890087062012042030649926342292195436264357118162248725513345469105674950080424821679943703113243215860757 :=
  prime_of_ecCheck (a := 231635669903472859018066316688992510326662441167506466629994062317391665343149935362919392165280031266470530632397518757697519284609991534502598294821489831234463588871347125795359045760449690665277506744286817328057501362367362987685693989983000863068401584120111289964140806059904295300922395900333549722093661193657916679962991516330500907218364734152423898436182701177187290931266400507430121325432625665214682653658046356025085244409266902461715464723057159008090323351163821693196398204420444958875402019834235820)
    (x := 1213414620061329796613389300157904176763697041810197386698435272183178391014845419658637239418171514889392077249794005977694564463749259481904720487020641946150646851545521637745504554138541497436498300330480310829532643578369574473076734481375319403435499482640992278616919906116333785434691678750593222929630483749147245499588386037761046711111716492693579425583783625390701911405609627955977655539755997271078427373348350225594038371094700899249879575353379086796920442349856153323131379147671155043587942078079717846)
    (y := 72697419074213088436717204559348702986714187049965819883988002944943708746510066955018161316218047554678177516941169504680199279661350048913401603538456260982144601634984473760214132001615996161676026120418560195088710372058134380262313042200876173506477418225175355541909303931900282346118091189906208699649534542057780006252307507428829742751169780202533831173274622010250013646947633671420863843181209495282862568454656700543976256388041759241873388458914326599315730235407069826486762049561824430352166803513321229)
    (by decide +kernel) e512_30

theorem e512_32 : Nat.Prime 14953478019729234782246265021403169867035495237902173890956005575897972474635502535551299138609885555799825788812737638969094809145933141211736542771315278136667762562890786869899791560850626006400514128022017926653800485015817981134941242208192731072201569881788530488020197506218293481201613821621852442121457218505255477489191611272283095431835666081815404475688152546950316935985071031567203642265774967269239008200285783339288066310453667522148896610446704118270776609023253118223391938580670015314950362601053163032827534876288379 :=
  prime_of_ecCheck (a := 14761852217441365155914113740801188871577888477920990382228779668047834376677245243429924627825909841651581650829546693289131918401147905743313955213301417200004444371239572095758169132003489463370683852066906059216446173307725657243117378925894122791728970638184525685966469776335813831528186957584743957111872533673434910525489527083422960411618111371128571319501204837944965926842227289207919879958785363773373127325257321025543623636806650012202380597600568984213259787926008019979669909684907050213417684444301173042235416776790832)
    (x := 11373101414515780594426071185506695607956719021252391261374881027692094253559431501819486643401454225984154380193092763585543300869305067390730224371329091317792746588105460569347999593433861806141890337415857658840350030011639831059538814458140124312452855802460495242316688866770398033904018488809119801019055976180402490000192925891467913017731636725248431090582223446755053853296507910768230329372048855899401794077098666094461239857389920712745120546394248110917110132570674457665806246680962755167261759894057716085123999133334167)
    (y := 12271419338384274675394436464862002324759025585864849236345133216091477923984388852122799401244244062635792740862687223742066851742740869899800394694670568031881851085961676433465791294161494996751641465268103650506795488939874996494466697634293466282369711926435722779531017396947134776258260602838444156169466441605849130470298256933294875954377087324546096790727247141488774993688256047381992131753945506051567568477771664067044235023963111988001485899508366484597708302278779199884699763810477644429280711145758503141529103451976345)
    (by decide +kernel) e512_31

theorem e512_33 : Nat.Prime 2854787554430983367052981819223981448357326866124332342794121993401791195047568949327831346458414979061828386120120478896079575609931757053487668344563833176050866802278747807085828329116233095430080312836196670450333534189988205946397579600049889734726118763133847635844383410267386218197467791196119013889005096292146979044738084057597513138317036522806306905170533087285361190041558386174851128370420043225743939987171693176767268231552006552700482124318457856492924400344604826850304488114634043552029332764911861533363928757634170465535231 :=
  prime_of_ecCheck (a := 2674512791379868470389739343349509161711804735586950745746246681047508764182378116525834551279945601979116268105216022592311406259194383781306705756546833664537197003846382662633938458576848524316062460320840256827702697354984218196965686859120220823728108050799002040493677396540074511095906104861235301982382436376613112018643074597069563888660272752631792511981920322507448016373642731924762214513440336105626839606126746053905321329568230888985184124945890082751717398709196685825337070558390706620727770964233355869746904243427332430058971)
    (x := 641277102820906244806805548545223083161401070901509311693853640123576684635291813941796418344377367543113988381309120824182218660546207686340991400260695479734525185270523025941155175776557375135708006672142089542430360971120360906492694818391908919598144104238204690691940257968201007392858217141220656138264353766202402900078056821269572542677700855996917514796472310155236054695106427195817730436387650808267981799391165887151396783499423049450284473094208741946136729683461172635512853891558368594186027017372565103214464373211877678424636)
    (y := 1906109120157170744535487618130218876243131213810420043341367575498689850056225968105442984591144247495078754682032327868752144459190113826589478682222722015560957299023449538982676100417044577408285518427922899705472371438108068933352981232722305436888534002608653487494193589262015936029788184557257748169382044510050983901976341218703338277938361655469138565201228905625987470205740203777779453826006465681540986664255213873411745184283227706995622520614817155186998974100599214186084961506172970921335902000549285468556048588293037717389865)
    (by decide +kernel) e512_32

theorem e512_34 : Nat.Prime 1058038609595218486965535844687674817264848046952998549041028001986702747571680569288207418771826868626761509157013806906046852392831489312643134350785294293374756474432651696102258807099048052790784355347828637257727414584004675528580827848141292639358809878463093535177531176815782610880720957701707851061915110774990622318624856404561354181968713889933024325296869668496289900006398689219503658345814395617964350353911536771854923409006096319820160873254271688416374635519365561273383146229017409661809840174982093619476655235666698503964242817392368321 :=
  prime_of_ecCheck (a := 242287139229550634420387269537379448603684168498291581510913391638960934702813207261033551953958964057225441788719244547048315655335111881290390341207839509235344092616890460250867381375324567316622989110232381573816013049204906622701164659296259332569990531038094335363034049600451023582744809892032554364127924127967068889159187424217353478306709754216141379468818690441591970167260978857162739281359961649197415835075919280508383177617814843959958462719736958094030359994689616865537449429035564548415467729115772375712909566632738666102648460249882496)
    (x := 806942924475220761672435810031567572443998482782119058777197766765432569050026063927226487113296480935692685958897792317731466079917941321891388891950036007227879302355338733478754923020503567600568271627560369077875185459547257171860594286148072789490457754967301274265181859858879446730870690887327217346582766974423660196761718272159264378120652521768098030901820647250363118879996000451868670115613516471815680894672444391010749104726175576833051418494055545629570371821270928772064786739871720281326383464352909875140925474913818731746540299227258491)
    (y := 395463096391327184303994200443716730692142848026896840940714681273354042476243193029639186489182828614337317141331388537744743599890774164950599569141571211199592492302775519187892544791748296187319717068534004819977005765031167369305896041500201731132992875494815169342201692253493754849048384787034654619249388495144842595620098580406237018052336310711143457588931554561592169654026909971061565354833578849671076542993095362474695919401221405223844665960332214120773124685671205046665503370547900264421859888298652768954893201050232003616065383975063040)
    (by decide +kernel) e512_33

theorem e512_35 : Nat.Prime 1015234145414225796402966546593341383491231394688737045901822859860959831794935865569773202776447321342933467414657008634175895358570111059263881291622698124198329349539366164700892199001704751302325837203879811275976792298143984782771738901740513315553271167385020820547398417283824752921166965139121301646859274264265243057179995179437770362390742693185588574699453301867965933395980594813766015515551732363927489822346600683104755897215721286163037459140782779561195812440832772561759988509658164629465881105541503885813025268009723738859794493819518852888711095605221 :=
  prime_of_ecCheck (a := 695870157665515208357405389812611364101237823428033890766140498284421039621229765933371846132807208524643523958607596056886752874547000126535829370896860153012136695168666070995125140105615871717319436223592239093829063816646291305656162395178386638210332045694413599894667743112257334956026902398066662354725101033189548855108955430620990892218235526572176217700621459719606990031323352133443609635177478285273646241733762104568673226048897461383921965368389977947898127724034597385372483100532394980000734809847338944307176038429531985899573604127846250223609818253715)
    (x := 615606144491303367108591202188066534365759577134586624569982932471352307261039654198666316260001289031661587519274062350211329800998543535095080188521775199242617344767336195635538294116682084040775156649174613818686856456154139262983027006377448370929952713944277287583521561893788508285983315235957873073079889540891410850815862625358046943869636080758791488757931872854607548355330884916319105785327433228303244256658618317919357843504712501703773201350424340424716928976313188151610009307705758313250649019269557007113226142861214056708648530667075405403264426116574)
    (y := 738454064451687035381964368511335939194859003499682799208419231710186232215108553352774764875151011906577040148400913234047585133698746315886460930399426171910592188990674236645859784624114858694588297221015158885127318254596442309322874582422295310287148979091190990505695250413316402315739389890900904296085249617294703062600087086157344048304429986864627644705922846753272992108197329861176829296368723831415111482926188374440255663252512663845879587550450889282071187814824333110874232444959635098142546218159186737010567222069259522431781093626886495186079176915096)
    (by decide +kernel) e512_34

theorem e512_36 : Nat.Prime 1220985319890325116033847379100324698811017113101115239239572924365209078634287661962159610918548010922228110075396686955758672069194791544532064139031070920585895428343533529908980054394414281123516645859172844626179461222353865616875234716786580083747520217304577649355189182514841132484517246457406169828070509030487984517845597209215063346049004866664415541754863369192239066314913749818574664126949605861424627070362702984309866201201504728368171319271370113966032969184091168503353775255456434526197406044632042814825077774867802285293023297827520676348421808781427915542378167358169 :=
  prime_of_ecCheck (a := 867832156464941561555568303972562929320871759167792898564397863477329745852322893947144686567449269605021060440872654503468733081724258731962347038074508630974269892603431990882212233752466123044156746910010486391193971350183684513144715491543323362147036360630433734737402659612171376182518695522932335826423397168130966312215293325760596842461370617027527777348994509277071231399945640221503161008261026087242197719159547061576515766434348352553655146455947021108844141460146152712508896272829288148043673917870094423072006551969916917716275569969582703727828954311105336334641184360204)
    (x := 108333815026158678871740653626710302580733738012598793714812951244707384212005942492439307847209756444963473887881437242302829898219206137552257008847006417955448178403861333129316575903369088101362118074431032988903859920156632084277730462791991827419878564873816446702616127114990440006544270294243083068455278068700744807749677044456569106434387070791392484439433011537242120100650143939275583018141558676224844744729537164439852538219876479846967093985775164774593102488876140129165356442508657875995802383642653084948385976697530257805886161074850517491491264713603728034566142812416)
    (y := 619676396374716189668543737553146133334996977665770241254150750949187423235827289233647555200165059721444875970004210002057573708711539118746686293065373946246275135617295453438325538162543539021743466536007649183073945043066519491685022089107287991959369482803798504664342678563470934673077262592421870729536439152536495911084405674465006655033876179759212499982767622107450562896343412711794833409599515096239825402176839220537079492316773916699582196176542031210444848459242682035536730593919415734053058506244431204556363535825645346012663108975748540198316359108783982714355514637205)
    (by decide +kernel) e512_35

theorem e512_37 : Nat.Prime 336141846726949053771148796609639917276976593284254972739925340375918707880683409743915037784737629489442782980801805147698511047298106096433840219803285715813110491694258272665724365960740041011000007695033346545248516055953332901284451963340425677432236042638583413284673898405635674361108106378175324464398172665862979682539839486801598299861135177762864736609656009831427065145983859637944536715992576049076074541850102186900115478712522940204056105269150759431225899344206633579628900349701066637386380912027495242081705037257950413200804584001337967161952507596694990227113373884449371093271178349267 :=
  prime_of_ecCheck (a := 15351448323926114702133731098148398675011229641776127605823325905848083181773016873456035139568191788495169642153959588081602161433368195662100498335655878289060103088058131080106029970260663370882634184800520433132681456224482711127448153620709369163311490637966557856005827835047101003629871696041177942755225193250278734518901588449107616038107346336240522546739137016967986291314928280941577059908554926765527067858023977521932504938043206232734237721762238739371222343449826160871588502012062691273752846802942670219289719671501623366775147875870184494084848706500833941731353958921749269071298073644)
    (x := 210564345901859170250084678591015474828884373257989397123930885672161697003268512945290100759329636162376812077945318965897973809894410959681774390573646416919115356565910519098048886227369671337265842276968574307170073221025965539938489589234960625870010772588036256267683456904017816859054580467344668227273950694875366766359223641754210079074694533720102522945726243301397874228158322505696868798915745854249598911867216505990204603223169183887869523485690692263568536732140704536623639926721576049524081448287184957397326867340801062910151209744288783702958756672747966583963338001472241252911510948568)
    (y := 16336103587534025824292246420492694645743133282311799246989618820406331533845447816932156775047646434694476555307968538356268380369341566578432560024625288745769653937594961261703072768952305637013697579268143677204447592942491929074024380462773472661822781062375582281196138018748754218386203862626698790892936018989382525965960113745400981746441528682088088045900444363164149205532715645801456641920173016872256076589543517139704269797746445408936396841452574395468650528963771726981814533159930118147185735766778996112966780471868353942617548694442956600883373202265122945737166775567269698136641956007)
    (by decide +kernel) e512_36

theorem e512_38 : Nat.Prime 1892254621019383083079065011407519639235850375485048851329360523805221920835203075100636359960038407083479026381873414386413060038579475460409885537133790038233114730797162485616586155735982834389013501784606122637996949260210037666997844815899713406739022940156628011373778677889228531817569478964890316899194883622613656062490243497422506188545193495657584260948955384299034353765166017270989382203916109463286938232806623769923107688402535217349448587471933763679564540535799345156290278525286736517298889747871274858398241956949947444489695985572605629314141186073178774359026410805194608866670012583145217207679919163657 :=
  prime_of_ecCheck (a := 136531847192228074823458240262755193622997833743065562071570362364652985718973839162023815941625620493272957856847697594583709048647056848348289912098678287211007818942159950809153555553969603359734972212941929875172107708329138434221038532822680917973483519920133421448077261040289590283803027021520650813838359172318683595391829894974431279898117248045811818413044903903795393810251770898973967348935550356364081180739518498919006032536960536783348772784322587273473686491731923881844110307850788948362873741008565355345093129369806198116130232479668622245733522459431386247663346868561409836457582306717417915576707968791)
    (x := 756759895979432354329424720752412547664461002368588656666012881659271481393137878278678327272296220265167558130700860278707337495890400248616220339552895026592901853461889033925565211706774957935013979638100573788695003947430931818973166488020660633919677902263078927501074568850311862857319854047724379504383193320102249209026534474078052458663835802433214731354025381064051064569399257464673709164050301105391923224812623901247960719311825719909410575500845175244544222005197359515663221458612424200717519962666965514497204856940547818521849186765918603615961010423061964969684795517450150134398556273875442959295902102019)
    (y := 1556126143374134978125929625438017878903184255664643293196654465077559992365928612455139629388526536183422047951011236104645344975634842854064739853957412747783922397281944633874033921787345570782520811245114510531620495006104381017681552599861637872441133896642273692355434595221881160522290365752378888171179584100899531250233905714047908452116919043116461416987583711100122248639024078424594439025852601947257734558037585350756594270422860498284283338557502428438677613773941825503736310833276476218146035225443960285889992309735851676924977751111144338978792415216867875086131095987501953453448121149735033845087719503772)
    (by decide +kernel) e512_37

theorem e512_39 : Nat.Prime 90604226168167218515335636226835577546026274235084302206033192090645209055210880440815507448971573993568486436581969625119835235869747976692048485581963709439413662122005685200361272089141929082651848612387341136856580675621404444807065681283104114948950369286977103705095005487687832099789430203242266319898412219527967066404141929124147040058629809809574487931862340110565414519121363779078742193173731377527379581723138699339081936399392580519681657121536770883423244452531694947629161534222689512948345191518761419857865756870326049372652892264640808670822577911836625996399287753833787842527614978814051930575659300111609023287 :=
  prime_of_ecCheck (a := 19746551636561682902323285350950692555840934484040465479538126947781895109971805436547066040357947996241380909661885109062704761461915763479125814774227510374525862854572562158089182417796546883191583896543498408089238201327904059154380690588117316186373528223664943844094100203912669178284339124357933012721814069565815217077988296709074126659727097699720828308458813168420734287238712844032254078845936089865788403692169759007797175524313906519177786522478674025405507163734517145234326270568660458111005513169120318700805741089391711330360511576086456331719814309757822543402869314542050451206349543878132472767947927372106068399)
    (x := 50023092233134139570049428486792357280314389444143452142584666130497867827665736006126658023342314056601794829315189803876070945406795032386731027085021620758735733419105927848695343382443135095619701818198629697264236041614667385627922913674634787110406405001232200319721244177413514514610764750006556111377934589756979268885688518012801387684706204275269481331087945992395505280539562885284614690254570340901175575527944847660033265050396955956802454830838970755546117119604270778627680881484880882616422327973693536137530530169314488731443525239659270228089100363217061910376977864236913103798477298228220162751500881790760537033)
    (y := 81353747605014433279715031454178722077042112167912113743768998018465787632922472010121013708494242825557161336835973343086544269859062875434976747358270378839657372834213299204796793447588888934844919493457350268053707788278305205579612102546466453685599357596765514003668173005568149397499076304502052154689217788266479599464127822088759371041727957306662121763782998114749380624874268150315046740500441814498000837767757179326363936581799417477444445737065299960776588548102971444854994437223108862334422847341931887880078608040267603018790714111750792552081016549891304779168842440839982196226102130881886997496985326984474686846)
    (by decide +kernel) e512_38

theorem e512_40 : Nat.Prime 72696009624344831651293223127161377505724454328224067390911496689703561941891356834479116396443539898588148556052316062023727470105759440569754236492004040279589809434790604684630815541444629009469161179883907967720741346663315318911249675629504481310990472470243271148096181244889049866962163267360727266379232907989344850893659322191032057452622224616217280612914351993880607059547320562401888544418784047245951516586548360616333091461125324907561498811246780926653454259571296786716552879259601339428129417310676500211431196080079596172465188056774569166542655268459494409579176037550671020109410334763274843406071608381122537533481174775202741 :=
  prime_of_ecCheck (a := 33328135783585299919900790897595171485096158074378262065411053300452749640579991051369978785867548423463747447146485924659512258672728997639172226976500508967013941814932470629404977045185740873253381460596716810273924973624928984713523839420135107396283835592909007536957886333942410030965023796104551001884082862121277615775375074885929247113636325195690624009272921976396362808495910134662069740363885202919198105348432952029947369142796777246164662089268002570388878242271753511941044976118523029626663241722955897850801025372725479473190648810692898791698222907983993680052320435524539776979468991200026605518370279202234142629191061963233870)
    (x := 72333796100619496582995773363312803202798177029706958192044484785648781796729540451367927057253336032008901837387094742050018410631471692784078511434890184182325459516527580657906036464564569174247002409939439776143535431994516452310006413871880395585844770549153953679705772304890548399974785863982721509763447454114484118767685880690172670758550530163397846127477948449543503422523073963176667885879443214928310132281792268610065534979736105537628498595150644465172826182041375267862984103116238261560228023367628105759600899416793547232935594519480192270075141723031839623393018994435134634892851786073947190763616870473384411781691915906034953)
    (y := 19899238552806642296480469752224803342257794683411629492602961844945465030950825380780136361571049533319383935605375090643954133657409439832957671721442893700668080616644923498339531619836479540259165771890846658865497516954239309604929130761019990331951103811767919433155834016511017625405575514504523777330123897327869811942344565551320464846812327091765209843906241794383510875283058252318275072551811188093017727169295031672142146265005779201242244761619841372924135484621156219707870341661657364261416999180428599542846542587650792808747099963851605861362946463909437986716874647383936970454529465377886509667033131219701389372711926064655370)
    (by decide +kernel) e512_39

theorem e512_41 : Nat.Prime 124292212228393077594594512590232658757470460573743756287488402216588521110690642778705667405931687290807422250323220090761072043745926445699653577432629659579384834140272284677989271406360147376937188015513879095774909092547367736049724368837393936600431269864136465936805544099596767436623687385775481387456251291755949752252687564983411677123164924495795229708239995997837554426671773100942688914281794868792124758230026065100148927601781816759380817787997276728668274352865397045107446905192332299607732738910097549378297923404725782447998822503842538954269735674082811435064202752110645726468681886608527620268855871524555541005642677643158545026043092058800497 :=
  prime_of_ecCheck (a := 33189493092184441862975016229254464486010986884850566745816827870469107529967076103397409671389760147627202465129942750819653778695142844222754619442356960398753247601656859119781767835311679382788993461692049542709509196023651851135909927161707640168604092395276232760988646861439375677274935037666102008316066424945166068799889666735156814980217140822108830312404204617007628227348682359435307267589936473436485288871200874225985346328305230513865423394364300606350611494261913879277594024705829911722355031369131241193571544194829210910870528279096254994650606728037731032541324667301332139396190514530050634336440820320488303735232580700128798436259278712932163)
    (x := 54516324239827108376010833068049825785473633444093901460387140304159217695959128098763917105937135919427462892341952907651051931791888745954142012583265489169910963733099725952686657844357401663207728281139384909946552009315078187259065374797860973481473974234438006814603711334071685020325768836135909115152651785547939210507649541679623094462783039081306693176332804653774339015599177693044997452345413368183493282122833426591816927302237394841339827977506065813350903653041081454809075063528244625431658317366386587208309619873939502269245843410211666940087234437356203139180503532793249072765566820702619566226123839639206527554385580223926639489977207481869893)
    (y := 111389632205151141176554248146333008671931772978329807496393651452867216880940455631925482423413659995906269629306665361017598389470174564256378281670016421574655400330216751422661766529338630382481161357098024153024026526893041849846710926066735742105348117518073106461235100269963821492020545353512788519994320285624983603705143580054336629759383657505010036926641785200188209103717423886604080835266877531292772408051580991265141034066775363228634248911802672186364860409110688293335618507213371105436900495728401940663139659998916808889612429294893935495317745619025159091067092811473969748263333122503960133372176455419244269438032555072929544636040709945913502)
    (by decide +kernel) e512_40

theorem e512_42 : Nat.Prime 14928204527119366192219021898551704846442331701863890446549817873575767673530550988795555660252694459788342262576678310497367899433977994432373358346831844383420711142315075276279699826510614893917069427377238648285585311136260661142259737392918738350149926720389531666733914035417866061374628528694340304553490158611565143459934870897999463058434893997667990525074091749042744217679529703392960637732518848856433029558413121836209691877546548350860170229765130350210166449121876009893133419796827892095870146444312511650034957607853158862933643319826288556146789615529191107700910785205401208458844251131188983752684183355336418657479861675410501881533042565111594953313468495052306591618983 :=
  prime_of_ecCheck (a := 2955861528545398569703756172378112940004322201690341889441704184927154087035267558059330511535381072231559108490582537701200964923504969675336535635590980599878492616363141423194376809598707309328032952839499530388797737582444909861793777717331176743309092208035671275178055715137059836148084923060269193449074955159725490222589732768144024739818306871399349544065711420999994458802371071617644522053411267432975804185167682462499401592262932169148233696267967018690798070456170426215092856897528111103021767078252485291593484963457056957230749207333751067041571598333219385278063438620942900447646886970631617307794820385734561439350041314779914968080301762841599406156726008170457313160886)
    (x := 13789069794548460553219100487927499105504692280164913400755051801696880870349613796595054908625757220063654933040571765769949912165715399629030057165193791795997565752804993016402838258607075516738397987219483075454094776730559594891776977454421436754340453402175714739229528555059583824696561654533977471725628155081196484558806474116034621506683825730544026496549351702125506674788558311685144165272043432504788894555042931639989647862857604334362010734255741124306730855166271914891952820140033434592177159966447273870445204304071484917410241384787289865173314861448857159907882063906160105051329358385716196173710726792500068562064289609875156325962043392803748233734332864143386280902543)
    (y := 9565440623032625483026543204885476393289109991969018268341254617373072817379232181454156975299769064073363203198509865310426688755560247500244387654887906926215458987231790134090705346008532682565163410195116714288519059575344781237212582189378702845871159932285526702110993250238489841394561792657640672717987478831510696217798941710514767429658511127399689607782377210350035352634553144742643937547521392945868104049961208979290935807292001812865679668703550221508405314914288666672200632809082485159113032570276514214401709493994977285462441587892972842057628523585026519866041775946665462162679174807317482181680729768711979231470091333378228304869209016630228609369640908394500451903821)
    (by decide +kernel) e512_41

theorem e512_43 : Nat.Prime 256597565748986791695539769327698942073724076169603202107557388775996944097769642669436510617989690388907482418404693872213176406074943003734232924609764440835339962113421791472964322864844761303951371302837357905937415499507753184639917304262780920707432834233601596665658599037520300096955291265547837254604674324610961630818212592231110721952478706901165233821143077564834864007602219991691592176825486273410296900392312121953631728281326680709368712570374280906381452132672702507504305076569547674748491343263409354286541947570758732771449746935822560630910218110654165150038478213609528291211480079762114226273915330583329023699589836064191156874790865936431739615456495417258974716097944397669675571273217 :=
  prime_of_ecCheck (a := 252447449306902518534711596668768936619564573588243442303587722747748896393652362874000945527648769622863778201873763769283817675746841010406164729935122533100370026826660118948280247150149846693941955456970336388370693252719045385887525951287120683965713550668643059022009355139819533281644482241814793548995384028559645708450235512914444267790863339706271653964217745941792414554415057282898951194818621151680157245537534466696975622620228247028078763684147089267053324056807360109698103463323783139292283004384482639303544738145617328939357257913943144793008099066626563610410131281297951752513006593054125049534130677182411627451498390524985843129407514333245366878662770959422887900237213603462870973483019)
    (x := 128312775670717108327350900882421091721052029297659550660779111998657553350688999049188978477735878523452955853797058566134224156922635854950637735679457914325438264980468578291959047043004646620524427052692368902287923687350789537214450342265995620911931488611422102473148986280007884552628608348764740259113353777988824972606377811587676443342840653199309886839803566200314507560756037400752515684320843853520926794044802442722970840684064014627023810038152593686421872955008751435988315857364885168404740728980618568693363730820350956753203122274102890936884987324233751355556243454448172573007283341255391900269018585915303999024855309352021021728158475792542140560689661400754242955035940196708149706240908)
    (y := 199296356276472882951084861305686501616496335918720777870277780683240193467627097177098403983634931009701173312302411574444860367138479183619005968800591977901784517390968704977354986017397653097567905155119737621959601279374683258180533054590705222315248769557123239732711761308475991319767113239986276680806139875432218932147104949909985867232986645314445991737555541497603214428303433647814084369857334065697168116611082017415843211701924124865405618552981468021792991908231502677218067176934578365645130651186914136790537667700808528255411787454304579371463411603558970361767150040895196249253637287241947252139201403384581573963366404466169195215449921100862063037166190474057691025821909764013758270675225)
    (by decide +kernel) e512_42

theorem e512_44 : Nat.Prime 60775730584090848233686980488124127263639201998085959407182317356939621536860995557070200979541084489725901845262529728054001338890085169831190026039294750323336806132400953196396366670921185689252482725667399931995263800546472530090577607433263912815258874970396804208141729559383433298916268887219840192564961985033739715918399480193482581076882460389180290887124699452422548423672045751123200092708424320235883699247183345952110180686655404768471200174706017444713333867312293161935786605265169273951970492983732393748983622112783372219670425142166287412564631836955500045367125048349560662347786018028803579651484294334123340973165506370361795839692770462339532410890774296913987070077057165186723154118248824998655049907 :=
  prime_of_ecCheck (a := 874055799593222226805945704333147804856059703625146455033691255358391131348065674333685042405720705551379523794741758509097685187206433260724332372436139695274697410174612778160870552315055958624162071589776383615908728233371576152353910020731756062781081340158855215275480085864400492233153459823381688218088594748272860669123842795589604705674591123915289313137231095571341797110305690869470019253007876615554809771916985741820915995339789641259979452838367409047313627768084901665438178973467110878290912071739360382266703476257341493974093208082173026564896344078069360113189804577488522156084910102622707975664882564193851050058211481474594621763416989943745957083939945398942441834591372894241716371398409852043308053)
    (x := 51687419036000568876510693847395360431201886066630856531116566419114353592383717818803629005572440797084896363376631708828635832403187415079805983005796706179667054353449886579677918156123750006962709978515826253873428346252659552388060652380623946177013731208843166019063096045050714068938274047846720430610029002797137801966343282358770942586905208897030564611908433805396942435505339272727281122803676388698958222346498919644015623221237323493279220224198585808154744287643924166411309291792064557177375099738794940264931043107959926316376917876576333873736508235476666590537965825608260958283835895308078798491325862016066176349833881102740652623500653534481949036688645705035285185621990409760874242140002225632987474630)
    (y := 46085568435289826421695785571241010367265916458422398780794294163778086061905960398105111621937677962057367856915813660988205405403875169232328257401467607168762729108340874896615548973101592319588932027560221522526076499529693242483532010420675111836529323195998779464421583810498736245901793138278687660788284145618915167365315240737491095665157307191624574637061655946432189613782158434042676710402126860842150702654851606591155291738122638139693299545208747028948295423524928376287543911399590052268047468378010350622518026792904969875573731670014917797589967301365449991083664648222171380892808519539881551275259950523828354263323264683108452998438440268857558779827483605426233671790807121885934570061695790591681243901)
    (by decide +kernel) e512_43

theorem e512_45 : Nat.Prime 258454990452727000549901117946911542386525688267920697029373978598979989525511348447069000419045065095694551574751163368891504507622543376950985103788046606741049061209854582617178544696029714673318477300933574416495110397215116297957905160715255652377608161737171178582011403040402304363011826820077513491056996189549554266342757757897741785302733471617985316688280108534781304511743631633591735975117367138716942428968975559141616023211834817602233498146522323802056537189120608697695623820373745949774667696223550595334676214077243288812865302575969080036878208493814881284856909954195523143943274484686280107199305899777234270113645283949326233284724906301442481276377892614083439318381072217270472770366803839112486688567818692916798070809 :=
  prime_of_ecCheck (a := 125516948098202685004718663032708175376188965133755274284965724694076909851854259705186967501585093212222405800821334354570759773504435536072052773604034193479807605371569235463738385614761295963523016386087709332855887553993238128800559451648826679468683008684259837388752140977658970775893079728031565008439619299275408169133426720964790047184378044635154134644354416644110073340314298346228410292448605676623823253525516142776034179633865554440894881933005397001299096781785451169556062941353411159156104662464802949133406514710316763681929089841579268402149565294794091983950163653528908485494192536394810423771427039862055283533807424316223162355697714791333590427769445602638909276815533103291920746512986558025901378054602497532566790639)
    (x := 45436482934325005300755585013291886664937656435287889972610988163530774536352230376092173203338446023214912733867992978585602916069934525612858091391119149793398540201811406330697141988466184513199477234282038573222921443751459366712618038889978071171745687363861708372698920890205347045344338990940582461846923815700664725831283491531966938024690042182067070421330409578227370179356516531037220519852940097280492953900748626547957018280909076292860147180116036865557220646108433540278290472290367632259001744795825909961017125323448615466439725959534473754035930712596525716189905170263085151419537032895071910271601926372988210789483115445797985361101925694233453362693281534846955145970447176125191420638367432554672016286597722228739061539)
    (y := 179034074464252241205315456032236260400211671434277429079024092996763561680356789632124297411544224522064720267446164046740808071835264570553934078724865205385003483541516366301493177381965103073464298279731649270603551705680866245427747359462943487014340307435616182029236282799615607712947037426286339878479916016144584534864300728900810468260977100672137014636680332203883657152343645595850918225146550740118390461347736922281008927830125588372532032256245928472953462129068013444216534200706597310795064121915021981880375495596603895371786766000359437885589554948610340252651429362814851256524811257335829964160289133508681132259853575416920063428841146684638256214825018209161146527666019531858105509032942130384735782827363734439307347436)
    (by decide +kernel) e512_44

theorem e512_46 : Nat.Prime 2465136668342336294974449831348021353334088311015431594668468056731385073179659152707764640795521900851674918863602533753015495222810492082392161291830152236240898779713351403115560628355704357820097236732430820346366589276463205155840130969080722476867983665653257470251693674070949124177803002121344445027968718040581558985771798286861370468444229075000658342960654979250607953274983377553224413312645801444422517884750128521956155069312500181173594672539171578378095867971334271035125594991215016751229485327515867357738932864860369302427242511295197244764692267151659914457019693694762150810471427448399303613439523193934736932347934553977580690028888408763920373904945337711462630450722667639953316888489697140745144287001254611789382561001506274400929 :=
  prime_of_ecCheck (a := 1969419174482003651079450230629623104932748563770750946138926702163054161467073423950091889487757100107100146097431381225962108064791192623006689293323982531842997513969476202411938862477672726810072478956416641871181962723395114517096954458410309888555179430365575015790652321137652426419399026112181011113847895301757486353099727088862179907890919780779590795549399885265493188661363515122411156585509686344922264995803555590695746274972763337111465879725487290992764267932635100447716863248746497589742158234348196151450513863676972609747001326614953815622854364516936057272701863937367886190705787120507167187194424779220157083351490400786297984444265395965288040323663726787556666564148495175940010278630366433811642090446556377796017661818182118687584)
    (x := 2426765706390876793803369897574787028123932281375629340147377513263733030115729955911369133192413526469444671604203956298884331538668282529958033995065857128696187698989329964215483704470067472518603301577962327471727847343041325306847932642953902408899428901006573076448846235969533704446535494595598884224034228459814068203013024221387694783343409553159359163282271921290664271567848759233142115609746338004454564151192002841232724592087929854641771341807379921261917666049448264779058977914085114772725510875657018457541485701683601575225691769717768686956055217219464520380877101777483533781367509346161295352116204204070798360850619907345930488583206733869846243127193668767173747631277058339826203146729891776605177623885911011266268889600979070653475)
    (y := 1336627572338451017030932432369056295562571342103273337749990539065652326276878972960976013892796016585321140582000016034417041474212558313759308242466239598020698441338974485018709625498689172057647591998428518579244489866027087755523845775515090809353733668776192031828026625456597808400789077083627988520282001129283569637555199555297121693731648442038000413451573931844208065504668333850219705555822889223523932546771968845210192067810371719268948437189314097038872258774755429323848600176683416783664458769442155711162711359600790378522207368610209089303849577835670694017025085397367608518233768368734059360595121951624810235972002919369182497239913513585975429114260312473488045997172470244050662765785724354615829683479762906835866701381012302048800)
    (by decide +kernel) e512_45

theorem e512_47 : Nat.Prime 16350407534738712947230551623917116845942288128484403725136313571559162122824559713186149457724392246311487049731979193647873293650818055577143449326840077185594912045564348176458980376506617491275422462375370785749918421487976446367601588888112678991191652839578430760072651538001107543890671682834844421294216726141150644884855938331943795876644660672215187888461803380884691502678443882805596803971454336028199641953307747544617337524948136438961989361107347390270685101537503155952494742093632654381885134413948697688260535135619061262098814170728641669530351692034779808005805738069173917407540652693500213972403844721458928045314804163257304265759833250602153335588783173152771429710992465964254248883700164300197956983995099676974601879039655785676861555602039 :=
  prime_of_ecCheck (a := 10706447277959687969468095356416686755367624989891924230917367074296881934263249381704574814297058632635356242784459073475001342137196271948000171906873439429107459954723514791162341417417645126494581185358785856010641625424271679135393571421336201226755236606221707940540771795021453376773551978715005474751210696604042433922825045820779692059841480299624898167607103649472827150642538275617367096932966147046827885521640402719578288650985315180128707154094837503293188986175861808546452784752143059851321013136897149705045220118865692100303011880806700334666401498626399996931220796486106652202303700225783991499198072833388689823238371954605293838787240911364666597191530693213681111353150917111378212901764067551847079463249707270459754596112415744968804608796265)
    (x := 10058093877114069119037026436134836610294572029649877546840928592951601073542587645850920272221740984677120532028358301101507078130639403373704185036684981272523655148859771780243719708357755998647593069503184873910775973792842686186861764947372829537841346836090481001706924788022765576543532755114537481558307417905581515312685331590316796474760232257029014285753579916857101182027908540286192127229959856708468417495794831361443766715221215854880755995342735808508373182796811686134956039458645548902628613860916115207518111043556379215430777425794617125014256981936324544557327916023840052767842299968740186902683261835711531287887461212944699129177342874282673240311562048996840395938371888664787863417948991078753017237832101742310886450084282331726502062446474)
    (y := 14276707111407705490139784582690490301714847266457568959642794855602601877371379711497099016707063601080107516308970538048757662741408430728899372173851834601276598933330818252029133848862434861937542144372778716961714582940909282704837931875013709397285411570399696034785888301413479405890468884379438247052878117536684650605730798711900584455125718367872017999430689193842708498931751955386823521548395207731429939682287680304109249206904271039469559316255640211130983805574247575592666581444619969278185699613812427407348300892281391575871168870882983375669607224173722308629971074283112390209925054652369414332394764408032131204992318407256701680564438821466173192270921363437914369119252751672174625514926935735238510948654990576023791565174344529049657980332504)
    (by decide +kernel) e512_46

theorem e512_48 : Nat.Prime 37995020928328803437622562418184625103898217795938837869668111131425234122941884186540019494644997037437484967552644717721733924561545008021984737363039092184632540331272828209795360763578051111027142118506799783123684452592168756540792900705593310925255290093478417046649184051607777279536980345566778847233046571499555368660699225083699913949208314770246452215999032946121634150844302181308408257745275527356243110493253941626258985058325458984080394264716710930253973598375790990810053450091946667136328752297341382598717455760981962800863879228831333767270073568701465121342309229788544639524737680598448999469271835734108997249428684368535849297951370746423864598761450687277817215511627238056717588171483558760712974351508527753267705483923181030305427594872429210638833669 :=
  prime_of_ecCheck (a := 36520394124841245724051660076891663823262181524925984676335360871836484591242832616758957461275241327233077663394485698074372766237004134351386923649977592991584099255538427788325321671667654130793559572517942893807080392835402646484808700596170711185619746952338118373599735887354968852688010420342916076028183943397011767710475013434086967881074717999500299621369502164109612818377363296838907476423244082591440185310404560625400055587092358785213375186054281541552008663230715608568691618031390807423865674626144570099130669037124001958350368882053344164834694596701134793479032740293084708037113690730989401935083716063421134420064566380773704293018518326287999843308569009704385832072219967804683949972631444961172191155235527835072198214053366042945790513527578116123627929)
    (x := 18584953902502866214296209998305789624087261241252119074910681160894823452004524697935330713232495919875360677500580078679354711847991027050332658414974521354275149162893858120865020506416677165084702319690324865607846497212896535283120485853220847571498761740288430920262635473647043158571024673899471470125534612891406496976843460547734849443305332972209835583364034320760019910535897364677040986573506272215545311014376247034818937092140360834073347515940495906748187659587490736717748621545270813325603720315667234891155419709351969807344817787491646550365648883755145881860355808782215375817750187575358647754151363101538736657015879879626710634338825795227965064150045499836520294214205290560050047130609475622846188465929833765782311554511187406519925304411248769694642405)
    (y := 24438955233285726463784814596923653649387601416962479591835547530698179127620551163083253700281157111816663093436872518842183717842915393524079050422171976077629893703370997649610997185543973876145709864998342864703505091444881673962312746775274952219779522876403551274376229592529781684676570015519686838197833832147030266531021943032259328842866273845497080185138327690317398014626487995798422151822851845774973008844260352717084705953204938495708158653330408055014591791744661964632407221393097617067807433740474353644530730900003637686414308230723986688160334045849625819767988633298102951844073280788079664846392133897297436599655404372964914626775847430760320686348278441328251284762574052472427816094984696743020224496212838127073528012091083055379636530665630036471674085)
    (by decide +kernel) e512_47

theorem e512_49 : Nat.Prime 79586364055275411809472556920753973708058157495879064753241468364993249961696160148371150722906099871161139983497167437481835560548294672453970064199943747520707324800949844540805248520016243161718736365299879692447492122885939662623312939813506764489130869522318196223669648130692997633714243541813103406632665194286109541871340537141665730655497511585951065940514825718214728433286028641061034482778655842164550418724609519338551243758182437447638966433501039996470692131657776272905824039366664325795485701577273117483604734720109777324608642058840514959600196972568589909749908068626419542769039021689529310951339363127298943656739052862831893920730165831080382916210165712294091011317307359168522273809411664459044948025384164910784075920386766074792997631238140353560025536909258863 :=
  prime_of_ecCheck (a := 46427235604427495426202582516618032119732116360147327206616104613319208618495127287902213184390061573733819720014379623071872953981065444555163342416389806874862970846162136555533613813937432160352376464010676529601375244066387938399598985795072503053803939450348695988202294273006968099630163800484262051338840507808647925433173927290376071785770373696891402252995143430731641546851567992037071071038084977758233209705955658991277842340840046158334877195279006416563280416570891932991000643100930098955628294217398465740362894461583677152389726011617462833866704404071195051703943321218358828313022014166090983885150666544479064897944581907376325722824499990345551673000342010651937887594954361613593263586027034217307654639033465250945879982828948374731410050134740547107432099787380415)
    (x := 42378308118298105378995266010810333578640904941302356218317380887418143967467928048194768234881893661928623085211463918230288521374618039892163735493718146898427278666839139598503866606353817574577833762017957803930023253246522977519266507361178792539798470144750302816320381324261631160435834557800701337100598569335695200208477401671392045886008479889161450493274410136999946697590525628607623715939063901494062022766964513200689125358642462154306034842802306389082162276254588241081070697767829519442764751341349413435343783075823817450564679134247105856680246900177832287934064273198818381198862042026898806142331075463908697514675567965910485314631664642076636604490978226523038205241101398623767949678098572974558279222491316161345618021849709239942117065751606048092300452215029841)
    (y := 70380893631956626950415581781391852081711471197448076441829412329325473558241383321867948529603417600982958895385593711505960944962271613250001867474027348353404023662594590895165412227147649656189682639707800877574286244850091072065441346595848655446726215359636573444946693048578146963728671930661417865718201758212989739978940592038692293518446857047796052179742814348695266635428882072348246183199979725031200035466470636469282312473914974089777431912558498124739877251301964516043193072316303206042890322240307300240620204266072060471548586261943816328197031012173605358820999470175630133475751188959383950964421161154596550101501464085822056153228173993581786597061419462660072459918311173891702049565372243599184407066781983048675124797709066780939181972189348411696303783222149322)
    (by decide +kernel) e512_48

theorem e512_50 : Nat.Prime 14097389441559659529156598484599823015995114873206931428422767017183710478943931760551572099491739789670058481391700873148760282251774370802759370250972373433194993420640769456232969970442502030668613409818181551634240098325314065241908716189316836111599220972450708679846521640814482883447354429817883411557258717050653724953422923791866843897382289508045375372529606113057707507047159436706074050727661529059773502525959133839063158224146102100349080951163485593621941420345573950610736165098949579233352012794691162295015392184144058159814408428197350801786241707945765833037769795972277426449772663356035807977312613853569759109882585392698355364431477151938771054451365088424681231297713329663913649477288081433284461984305034428342255509655797702585370235402208392426879032304443918516686002482737 :=
  prime_of_ecCheck (a := 12273786436611495629747912336724063842020731065382015116753221173907497003392115790371682472087699754829810650425051879233113516622063068307391499935117259102262521395562328200709639842156746817938689485506328518575197727032386831727935122238580365681198873306798899098532562583807254169756764234252159719804090963658040313626583354162821909637324018056488962198672763584601253447059788319244065388484178491390837349571067462346950768703160765045884152108640565524227499150372162430872615649559244090827009694684183695279914902646111759965828155186055568187220196882436581432478219153758541659868852093586902161207369419735054833205714340101744412528364990618627699856609637968717799968642647940233825874685678142077692070863947659890324348116101465993964533105273006355139424716161878960644012262263513)
    (x := 3723909313095915255966894829227254862974840490891585827973557916234776557764009259663062742620956557201939442162308171189223921302149417699919837162267283536564510863086123984514865443215345138063730120915169501992406455052689279313719230204782858701415726885769320997013874192167464882075417447881321763859651638397945156407145908371312856396053276982236582675395091470976206769261769068141719501917085874292107150280940906273373840244110295700678735673404221036951116722850241429875341449138747023233493922555457728458889104352012128833342247507651747510328515079787812730944394593293929189706326592303913731061168442193911214427903641394497316704061740418111932720630214859034965865641437523686124603655367275879539507007345998851810645024518422465697455078947471874652456452199839758751902368934151)
    (y := 10833502164068025518745038338332190786280373683498222753817858513889746989925328569907945628073160514608254408081033556883648076992019280855444839890851753858012977341923614567368599485111253585139946111315933687446778374025564327241342961766204857395180132494494697257012577792649156702523689540648830172002170319891916268753710228513834583221420401855272382643115927303284723957823553852542366013382585180856507142657743835822265748966692487577162979818476329260420529045016730931109441321060026077689963981702114603985116871782516081273842248436489089753268653737163695857098192418815649497403567534914318815509078960733289507977302730618974586209185675941763335280520944889402475216951897038685213675446555541856578175936815775852951859506821271664864208235081368155131627041560806560105939200255188)
    (by decide +kernel) e512_49

theorem e512_51 : Nat.Prime 217082549156901044367297438014874431329553192962473570285815893650102494172753046741632733271739797470327795656929579226990507741539502959821599739843616818651047144412839441311577440497079707483757018411130383863952692850798297535217804516740983872203478097323086335396848810699184149623407041678462424626923406569704339759360141839510382954978649849062965755770959178990403874118581693024644238021324678546234680123114594450753604291496433652444981666784219725032557972429381048369559040733941573936183206817787367510389371050180987101005313076938494052117207011689332089843577713600703395563728336747803508464867215324484539093911344387923598355558847601722546220491636991485506490519236206240650624733231474356901085503324453961164186899304530213930552589251948119392883113671535684588890665671045285652352134219 :=
  prime_of_ecCheck (a := 207269433812849389979758077345000455233251008746971412215183793753582996054253767359325227745711981642545609201662316389734605206893576542643751781080437707681845014814577419796065274221242829924314061354727939462704052846922048291396117873887151446153267075709579092179752634475359211603138724501129938139894112227136497308112133042831924704295453298794246050210107563538036193348897273967918134476748716815659417265367678114661660950329518622861901809244726877047825580871352938541289361959178723810902519578618204466713118588421990818833734042236516546833199838167980230060998342427858252421340263212902022472929055909909322854789797533605028113235177869189783989970983208446367589871280058117767737468360003958981936672897028968805248532179154172016348471645974274783795099694620169286027144715458976651333650502)
    (x := 161761908443520534647725909702270951310053553470198345284236975633032762190440132780674882148912793885901657929181140865504379584595916969007890035700229329368540676046818286669552217969792791520289677195222348866463986360118609768774494909806272291779651247147656768765203841402702718484489385337698282480303513251321825999971211935951037626390989973202360579118705627841944639648446935863290551724576362170259529850893232643034313209424243315396462073606988348114929926710513939074633354351096474104729314441390852317384481566093779498209240557184758357070232877077869303928583771868501513426909124492728116984383841525225072935251577427624399275740543366843120656720277008787147762410804219729191995285200572764365239962670476439735009093408996615408944825644749289787635470475228310087638752615586364966328182117)
    (y := 157431671748082319046813113287007866840563225189607057963174697793097066399463291944974206822321609279287312079549238052851324989936080410287275843834946890894102893294652127311929493292963484996268038312546385159001489848736625537386464300721731643765426924099903701438445167604829498739098824968865808899346827257835806550005739267055455995678370681255899998668178555750289364625666911229429036837619912076520775661336089613264531022321196095160948570088139998479348261530220347372225353985573256377135250796397908927628554964764274905664733738300081216125977694658994094638364960480257467236144127395430817642209921349397494285120126207889924983964363643643809306872517655502626213883806539121268544659853611460537218579628814027487916436748833391733380902275003829241928733531656989401789373803521044742549381694)
    (by decide +kernel) e512_50

theorem e512_52 : Nat.Prime 598454007691457163046603453580694075585821917606970493663670694572841172998590750907166049197083275682019007275782671231218135022846070733075307537464667154748114576494139345591331047759949262042107931182304562682636651149315332085183955148973188478634765097961294448174503303414110970844551599758677505605668156760465298154786566967546012361699528144103585954316852637927216810547990247338672381450810779158341238609425353275965300353379129799206964254077481157585188291113845957983865198420750743865295531919337975599778219288189445644290666812985093741145663112629322241397277019143952067210832858685997201217557571597092879546621124271087764674450535947214017339178790150573227002672822465701657488720861858500342734858746465588974552820861936660500907994892346286728202575378646442388609569713798269650885626725579005497579 :=
  prime_of_ecCheck (a := 243448754342326284252002765427658147785061836710557790055727367478311525053190776302670844474217026262849638086285320077004677361724810215408158213114469585667327001208092249808704539734899999858584189662983639351917149713312639430758484723103308958847419199271806960301998073727553967527439055316814378103018177684062617520434937470267035503632263993687778908435716365091906902886419965790991936157954882606303631059906498302332873917397500988442836527047936065764334562143461971851842302592507022741615739948906567240836442668583360553425804757855146625268882595274208622815940159358773792038438665639539731663669830275607842419829049402385268758392252820154628308086504467202979623864307294433090941093464528026144199013334278163213525190193792675759364184479416018001857448636727714185246896707734145611572094635219660225430)
    (x := 50823163970339433220640383699649511361056203679518756609276975152043789892751731398524533656591143499208263556607189222912219046116144184258925015788984995002894806256987594327587588122426570831297019169763356001576447703490234196036120631789217758945313897568486625955356511283190518710405334077580331537813325496399541858504563433001647842767923938985593358943732303638669412528630156724765458783483540099782752045771571997982081140296608540787643102081496451389860389661274150648610198083403450846638142571568138947638982304780790934886854960699715863459913407182185567862950784774954437031295210198755343667340732277985998904867585559176744791180445168341912685586632780344507362099140857082987782019336740869067573083422325097916779710427436772979041838947889548172149017083741281513016320322743809716480773600844099045553)
    (y := 101243680790938788411137022647417505079003056556840874059065372276657213356254868507472655814603736742622205394406776983883029129397905273080078211382745170139633695208383599986868137187064288710433024890454813832259419285089829777233062474004836490027021743615727961227374370767771402521733865026430676494724219647107366951923125700572480228270042476076166142433621120083932562236506167413460782539515270581523371995981100591654481662555806775801465407541115217355466895305923465447779817559367370366151373013325690653531843347583367523624246717031451665954481852509076176664521495436255284124004811183898435858417464276631621710931610285961114904529184195380989590240668472413991659774269740842788922623497200725255639359754015792442421502756996128833053191923214025651451933399010479705623187616038851318059354166525560360898)
    (by decide +kernel) e512_51

theorem e512_53 : Nat.Prime 106710294582281647974830290556331657046575840978474737002395236255487304385066845801208840996411790589025065685979122789883510798701576553209699284058602039430211200951643797002128128975580304521358639429252197344780941972139126308196251277387783720478118705692341001911394215037372901133188383461497061579360791569440368334141528189969956646358815838996353756323685791036431600561427150785737822954948321144633413720818375981378932657907336862143387303000275872884163688619031159994745231145736228444681134792369843382047929770543769806345887382391487965306019633512997260163033782821629371786141260587454834459672771949457073886861874447137824976862179740128251174874039960947077230539331344262624964609778208913641197069482294757120842747763788419047395586861618995474648440441182529409208220131707162606237342085369977172588003986543046053899 :=
  prime_of_ecCheck (a := 24794015090454515704949819126440424261628654728703745634343262315001958907669933975918395639826141669535085811089342521136200167597837070069478054160527856766837343536102086864155616087404899907579734577675956462503673692036628966055992809222779763224534907757546225534354394403237901126932691784674142030453415049079648663279410724238048523820293202443849878268411775411860385458772120774676682903629410236096112537983866436142647763707805710841839616817611931449386279945299405980917426861626228685003638832837744051031626814468283676759742146795454066894477455301320679160439820271789357503511682812866565495377606255183592482344997779529101472011954670388534557684033319232176448904875842482247647433060380052836950648414882379873210590521294141425474462225724199329376736790025963000578175886500241122813672674919351643210703620184700546607)
    (x := 80736783937367260956826981775933572702758185555754017670062410020430394709107195325797146252603787608631949328713112438362280803814368294160745571785099496167717595498920142388657630359153718398382616081800950581058278455755020496752418931212011372204621653061832161284489902120930526869188736900879206946003059668995495191708564703627877957401541542205883684804184153858657827800680850452576248735412567089389209227136874795997816253051072639265840532935061085745024218415828286018257616184046818394728624777403635890881394203816448142745092474861219454844159801765419953097576327068327458528405055212094411094557563899870089533909735264189489871576406117201161365747582790541526183892649091080773307962806245207100025745045925239653654218789742308128945193747267174064349695552822001562902635231669087327007002618319010139953341198439266936577)
    (y := 69311610457630050373732701376191506048427114655743791504630324259962165934979925625557144409061312699111711804040003786519413864359290231546545770421497542997370040491572450107006256017509468217000803716233331423526922023491060255136837101299147576678835056686558944581856191960300938144910872079712944544573637193816001260549491748121448434265829494931763531693106368977450758350410516788416350158581869017398771852647737354061244704753129870178273975801586174305342053979525493472740637287862739328250671630777500900459404521908132997726840726496546506618227933699173484422196559024855708492186440834303383590574650265352915857720982317064461412067036803184001772667349504725059730159331582753115572022327479953016909200904088666867384484186456008189571712936073162575472902892736667071268696127526329441619491631041418086302301274518360249494)
    (by decide +kernel) e512_52

theorem e512_54 : Nat.Prime 2465919832909256196353109017209109068091985380375389345301966098605711204595092807326018544801636779976544392118772541260857922189497511622860205937254936266997424824535393384054609925796088397397078947381720713436173576281164893696529787602530086359191340284942447260908331069977943881681747756304887662430878290715526893761005745210029034036325532161668763004799844647758672181293097313976001393757411254407434623125818248683068255218756929470267755772706978291578891390622016533827351123739684815932606920000455365857139682434702398051961895076291940189691352155663340286923049165937082971378279858508442548663330665226184187741799341962623708281251136930210494626325789840829468419502224622409591126859807316554360991451518924743060656061440711890837970398606630771971635028671480729442015097377477285339840114899180186118312626254101602197642185604936109 :=
  prime_of_ecCheck (a := 2278165533649800442769304261419637047945704754626015460755861179533896009741479979710154883125997251288493610941403560944125299462050237850708602633004570291523318474595078484820951036802518497304169140314046414846463700730658517412572293271401876162985253922355442834981048215479068340973413542092280824717429527398194994105890150445587197871352938432445812201980562657345660869684451703489239441702989795225124441262176430473325147392735824777122878593441844066093921809332301942789609379885638028679860092006525734263320446369853903412615497419464348527879630000356643451922656880567897399319283832649423617670462358464026806691262583421968789971843398033964549857067008573611571927861253325672936478347943184966280705927095993731188326526592527631245138518733305609034211845356721766108363976516730060563357700060162234312207310310169500540027527774199069)
    (x := 1654631607432994802241228986762249147083096805306363133757215300178097507654796405176245713637401447335595936975316979151950153246391020039018212450537897647196397125612626717925868627764429619646942621936074292644127514950447332395222205215144230722861141735655020293653534945700645360501301997848539193560753644848352398154750644703302460804660876156857242628336114931498208732989232642758008581789531695712240355144911555049061249890639077029203629164530764868908258834680155567586857972204112074329645899537411715397528859339978004967909990665926427397398371264843916602306445674898425096160138888121517366989497489189075446487501912034268502505033565004612467389165820520307577116685708813301992612120433356711523615757173070351892049324648887760939926389801328407675617589110505170985512861923792134280359426643083019471362616017721492349381670328427803)
    (y := 1505956706592903739249435697545505165019109753762307403246873872720127511997819401175665081506690206650750053957925068210704611583152477042958464073947279846077154492875136434097005861755074193510550663511182414058765042041468682799183938841422467869094513308371370355303265391291958233282216879090001431612411379890046208868113415155460839094516324750541161343500629961898970959008487210036456514790012488785873658290927882348316451016091034657604857862782560280434830662536335573766318421942949273946923870701980875295262957450049903974110981409926736379452502483640657258595028306833177051040090317374498314395705632072620515593518822999719883959794855962096793453131268621178465070939686328084687308466661781143234833139672394148591476068336864642930921703980361907174703500116389134382650003570903517446754131222534990234445805744784457519844331181145357)
    (by decide +kernel) e512_53

theorem e512_55 : Nat.Prime 232228616194912509530172322667829769716727557057811603069001241918899522754851146589196406662066308689822187366491336027998736175539893897055294445732814591834647012319703834592612558228753461211623650154675826789866532540271333724153974835955478575676537259566640040367131609326187265898719153874090165156621397791407163636617807113231269885789941312620539036894116171038025238632976844881251142052126922590047267416333748980125279413214014595637538353028193704243045260576995010389163987558057065454592465436159710364256361843234712367422927848691301532515591227082792432974779482413829489856942899488660819677126253993074468886047978723643832571253532964598971804549139053848470607580228208551922100464722335950331117233036171853232205036387908420241814515054246216389926814478730349943222866586297792147067581842942235511409782295885702308297997469005326713204558856638314916474033 :=
  prime_of_ecCheck (a := 35196452340657942111947516230439749451634897169072641796162111276439012632772131483558936191776072803327336817662933682976510210486373556029370226869319769009323586239300805791658714709021266031337104751955902124157475530941808665987851275721545527483378409685392433413108996989558991706946061724884356929240905184004032431337370814693117950129718910137466786791909263135735296217449208006479076972177751424678734618988018719414717298415225246298018070570127725919337558428719371251601227309397277412215422337474389866889748253948311506201172179596309142419182356399399574105048292555004004855967506429653203975547212652413719517844274479764210463521741026659611660821450375339673605060556961815283452788179307119196106381517839407183522720367195086430487839818816914191641912545733418303018551368047911579212011480838508731346846975505541541144016922002813313599538022119783629013861)
    (x := 201756774305581429531592879948970914887511744659929823269516298726061902667707510401450204888573787049713409977325017559413045556273802345479623981834954197525714421793179993002450304461048409178197635430071441406670258923210661914444340403019030205663820308701584182627934555320286418127968716253957306976081310755128030950129701073877302203157615470096614763626794199182361551733013957440292878624700236666390272714501001249559534419657887768948617899266797847203657234028750804483791371128140975198735722309377076658793373116883156895905655644247312491534696511364220275810424058045839095097171401253379191140446550744580224514480076443746253073770177499418810909022465848607326572099838603340498386466562622643784532980853941285797698951912864595173997316430081888655159694950040967508973493567636208494995240857828512623162693302410532297283110484731724146125336087495187722116282)
    (y := 178357402108533076584466708375711023929542332552017648221724825736526778838407118956789062487120435429478625403754445913052645038509939201805271490494394698481881843407299959661863747198113430894206758762771400047700985218776530176388954048293613948249084647305349342384083102576900828572874554550910186843526043780930973795760448210303714100456724023537987213772412496519694455915130779506214713072382340827542860108527504026999020274193296278672916212650084325763535038034610422203037111553703900128483023829550184236540194505514336207535656706633226912779033776943077920438887731616378320410633357330854992142272269003117885196896745508989711648979892624620003033108271311758103533406749468114143924059084606158783605352371013536952576364661830119281297966529284393605635692073098203471164668262161491426233498860115923654078789108861980410610965124700633348941261126838758906694143)
    (by decide +kernel) e512_54

theorem e512_56 : Nat.Prime 437903616283240950380252778009467595245025622401994060040707803710604068262837701374490801719216054119835699055943082911296512984012793715013652783599696967103863245711892108058162397313194278458175321912756072491732356162499012273774514285914403833296715487203285150953701768015177139491867197682148866039780747912216701640835678963224816708168863912776696143386051391883351616869871546467219218350332005041338241624948439373129402396728885042035676278400234400850299370613385052123436666063838908918062558789441535550791286094832214185423690711602654327701570164927704517756570529488692075261364915177683768706317882110271467354745753915635024635916694016216106894005033729582925276681401161692597184679364947188929583096150672315858826544217325684701112878957025893053530142532359189139409508751826662413340968356437546316991067793123368303101825453200225229400374329137846576477357546164931 :=
  prime_of_ecCheck (a := 139682963359886028458442693861361918758468633695491762300241941200322431793489729102191099748013228117016879498333949254327104453337814455805555450328775267263326537607599168185542148588226758980456324076722547759525569667330140885647503073015597898402088208606832964833963924764131261264574249008131003098144499784797842201782268262544652598670950979947010594641494856334138215144373286829540012871570048972400227156488777445223456794857360479881269389525239048881934394870849189528690758226071636734564065560320915851881332442305640805402306623221486765041258366528839578975548459320950265742207331073378791876476509322851269883201139597712922779636866912561271405419503838633459335354175687761243367927344769028233634705911561156760528395733736494347885304472804294893042658572891244747666444485683949098508082279089316153912683309324467052560891977344930371678998738208528752524003742326213)
    (x := 55150703272506490388757755935520361126375899876914894555548195516354538030825184751619745448087269958332234303990985615805342059509364005872499618299650752823207559051624375358912944040127953204768285312400089026734362095588303470409961607148468162615571709219081559965561295467050845800736362006390439142962973325835219262654834220231562187681717735559538490417212588308731624768975754412787259298330661769590769559792403098663938762882646878205321249918918379617490556328536484410620417788868109714479073041172133429488641879499373237311350906979491149603046130977717775957065809132984702373956425928786611654308791514003567503073020822168926517821595697560298032664974659062079878015314386872006694711659116963912542057220189326530790753515579215477771903060545702166546375132145975959562483372364026030196991611512938994754866868815779667030791443247083426039490419222282111259402035484113)
    (y := 370300537400789530862021770239475275989003907041531273525189026996021942720544581604914773416895262019338328007339199366290982537632603338349297904263445204701544270469107455937136233000980649473040181547613880218760285527288254063270279214894531855018578690859047879356715991476781000746741239417788766500949909494069041876233142437041982026565968276755797866234678936766228584163763576333471080950432978694855193830341002330745502952376439198206982041431236467003180533691439821952648535142548701903257740114913215633485694247373260356654235656588951439088411788679036434357663251426019762833594943802411126919706009917040841407000690364030839542340211869545092311772979124589602177429754542318196651746232933055010871732370828821403217000961478567066010487619772846321599247662084590761589207061278037412831801130259602248143640583278377925316519116022384129915510243772316165408205498058641)
    (by decide +kernel) e512_55

theorem e512_57 : Nat.Prime 511133800130671051271392069823212851730256012210657124707255329017324675994363787337645523999918835634241703173369388723469717553816269195181670924948290691215675192429046113396620836853482444450457522820904357738452266351197559597305552535433583671935091921412803323462538360978587197351952657283336938758747242604828788439530988720565939581459234856046430262748357380096612624407403295311385821015839675912396194433646941941058459230131459758730259707195409206104993554219683947047389353589739648532835938993738392216537536647972056962027465862434504336382697636329357328159651271654717535444571390590953508725476909068932207286563537652400102313304704600644751517502607781753283891520588319671126715691556252985911397441554027644374247654965948695859208350654209550680259952533495855593137825021182071230909795588530465339694367640799138811477506473423495966818143298724027085381785375003159404811 :=
  prime_of_ecCheck (a := 33253752973520678176304381846079498788474384984608254685556488144179997173429012881889398629391980123378504787525590409194687246704160042298197086273246038176660370065749078771984554114180710164067552598839577789152043247089336861409193462480715621451570787442924357592839768326255224249502433435018272998057685613177547923931209643189409225363838985790095218496715828264627049967883419420052220287035586263711114900054386294218585504203787812761942975566694795991339474531800514619483775575310450336775398831308071183645565181660739749783363113006136359931450973757993844852615492824463643375040223305687731598742310736083610855484787861412482906678367415352286388534564582657087102266429750377061315953082355003095399513675717015696283262399884821579305569288539193172335343840091133213275064738457190380645629601210239736878702765695450208385041290593459586863259237659954542700606852693759448344)
    (x := 45993341087948022447346984820240906364089476262783323407864626763179013705216839769613246272676832989308277303754083325455299249471329875800405195689063927305300611115697904739097140809171375790195783066514104077821848589996822208681602155665350338493616046765526882625080226678585630063444256652454673838161832815515580343380852883272460038129804175502598810627891237701916032471609223528075517890037301965340615059397679890325576176181185273383428270467212011357700478941986505662418240115885002065683950818060771990891112824857875323306455559998555344937875906724069440238562076464332634427727479790537620651876081029169155230510280584747770386260473457596128800617753921304047482659819636849814433826865150618696393092257212300125951704158871091284229994536931857168120695004653011929409636279878342732249193867510377600488384820561943057026203885263476537467060599189826935465972089290790755169)
    (y := 278943521728676688001067859710535984437620903241732039397416876546531054569814316739931046070749174125801842566439975002038598798101207620655054716425395095610428865282347932171469302305948987432850458385094077950588848154577189610940069485984870764562320745569266110034794243322002573864873563103967279375301275683066320965276634201223283403689027688625920996422478601106139576211670361169508538889914246565622328088781978275378122483885895123794413162138357991553586645793318370094051356740027518021059045769990189904023027802746828256939763472309864405573155223414265775549761491153978221676949425916853093016547957689878378574191410910905888865110179058986853716216188363284085146593999061523407820567141655745309752758605115806181797454484619682708989738070778602564615638826874817008243563825792731021307323573228940165698388118542591263200069469944592207003732989423329911900361283966802843500)
    (by decide +kernel) e512_56

theorem e512_58 : Nat.Prime 284658080299772668518807314565594585321355527040298112606341101559683371931401108625144856998414798347243718122797013120931137751483587558834600263167577310298377749791622216242279093356257175551126551321803950389910143914977188903133421790270994250655731717413611362886139551304389889013262714130949591248827720615268224713801400583313980242008369779855097709778501450336505019721849006208340434511036353110752126623014486671104571822148661911533262583944913830536500180464325050484953008157054279917535302760131386656689084416714449081592323735582126697786640330062672498656484296820251709511129224643960776804772414745933568483379653080027393757436572652658596262697750968521023082340008373225585481472735592727683626557428108918474651800295974932762171297787328181586577254224913299287593591619890480472333865578210127442834462470760590763912902633610095044384501922642945415318220623062575342049470773 :=
  prime_of_ecCheck (a := 121916456192762605060760148184513435140569337740659262211108229539686798489663116210944502118269037439831359067899081916928311814792011881753994176731714124569224157132962196472458562479518192363908981718307355399465258277660252741430085711074846376417310603943716660104379819762613046729109790319344287835708427937397255901927244989712730151712410925652361010501783667007354240247906787334771582195267125003903556306449686304566370889593303906959407377460134495390251587203601599777183549886034264603117896348855313639339602508573732169048159954897917468195292567006759670181137188721266100008984999928969925295742356765859021671705327062454382826315737091649994324014663963947873248202062895057498048817042238208451399971061324274830661669199425787265766525520052063080866771006181022769650526656426644875507939761572142899654410602827004004936605868689852242723217929658370059043191083482441811991604523)
    (x := 212750228885207754634078402910799361560655509191166143038481425964711372337730393049074396000093660262181667759696039714187171867052679077178325348659264545579465500762270199838481774385519964477531156097349565612712877190354264598766392218947250556440845119610125647636298687329419754752078145257886735629723656912508858275234997973525509392876836922156608108800766186889755876118378736582493727820978206079059931966244638477568241829262789257631034030449688618351868586468940631792151210613432533204622389004287058707418474707276585604421613703087733514387975889314262730696729738232089001735647533945063043835625388218784568227276038859458231339382122038960071465730089989709047898921426969986671464807404035572510393118159451891673400527840183151030814362490094384703932441916530384289533506587324242792584837043306543548508146825699639960464193694999218895505633455140067021368848065895674399110957063)
    (y := 64650266890583978888973377495613764725103386466314506452106156896336302593683745773025058920088188349214889301251017620008682507592950553465529442178458514374188273787832432309978642907211866344683218175524306333849509715609521380442121053814038671914516421686594055015201417529994529821630406727880886447317835705372961209855805862437957000221246582194219940261408756400830308079967985322735950066373527169061539179103225791235140449241331038992395781821113848594556316112587538352207914092439201059246051991315268327621175618155678192013303167696906861061134036110185320222861957424532479710744584024556373825832066698052787906554080713539385771245071026379866162983747963839522150891441791009274600155599076125283686373817608443795924072487648623194603866544770254506196463777506717016772395811796351246987934775185678899831720421861085319172054597359407711329771670210131959023187713856728637207748941)
    (by decide +kernel) e512_57

theorem e512_59 : Nat.Prime 14662407797526222718880951475596195565778635746789916074840119392002582815158402611396315041099085100115239465035969824120955746390265625677589570254056896031366802071954451868491171297311607210572064902913139513805769607203677541838463824781003989768940230770914638926695463251949161395191796033399535674650858497564273159135466848223227061362750639659761230972444976423652433556554584686793420315099884257601586680636720134638544684360135704763922888647662562717717967149737226471117737786533267688907359030170176071599654834083148527503003251988079072680227457469988131262663585983088127876358595659727862423312882630580546629709412671341780775425036053902206120923534888846315637889751619346064275219502614854112943634125459725507983098618152502720922913999004887932208894274328898744116463318935582525599004706170657216292263115350698576372813359178286048792176759581205227200291207788414762162319815644315481 :=
  prime_of_ecCheck (a := 8616331913622941402794396437286631424906556546946236034796095869545040341244170412944874495320632738100454642006352828647291261653187216194073971839162277616466519406369607045682297124252860955043286767213928224099023277762459097568461829231522586460623971028662601031988824064731225896462234357692048184427064598622261808541098895379149739644400359700284860865502969334147881400463987351109366387928536341878265543929805126452238612116340260550054020627674651442618034240380948278456913520477993931626291532619765761430927361835985615794765941724079639939336125663413994898977663632609697349872210336910311080946982551475838359984564150551766606755894888966510044277765984819846628640937977682203185401933713414551002769095854928951873854332027116808033604813752393199498100204525219380868748466186441866760320057780421509232139498959785240147307372964430405775239355236166830837359476138636434035412746941457741)
    (x := 447685581934833520825488704079834362896750251170636200807141339499273891354943306332823234283839799090965179711566910491523548668073945123887415703984525093472509553288646578540284520198661459015476406988548250182017373766337391755597380568119829550625062042710499592012766228515608368380447844007403049858449306078825552640205175382912714002235636384766672242953504150317273550410200038094832107530987664351141853511639559738131132859715308246807715604210726812662812151396294177888551167236819215625726842553059164633387299121754856725392864401698652557951127975251711019094260691957644706812057636653034976719804911013469710649230035756773116296061408323284643502313522837258526258828155367212476332809799966538994497645313135591131596340075580540289966226768683820616555232550744256257831864399338416364589986425478387299317174932902976674026994491326197804837050162456211177364904186926503977309754401708514)
    (y := 14275172612318565428978479960411568787026418147810934987824545847010336536257175171412072389440775540806688328115062896179478172192573920439962146596343032819156208367554031695422550023287557233354660870944992462133614625239059333550579481896200609092798039880846521756298711544586503622128953976654688973547397230115075936831238184223650932598468027605164597187813720787787507152653858589476855732071311917037208880286834267662628734166918091473129224533568309053752397521893035182238504439610945034115078727555016464341471369917831571758034554073402260027367957032215111521462972317691167103529348326972872509799806183304551057866445333942057040693946647264177637518298944082630472687367693843785467104367648403579616250502267684219354976836828883487862463464389903028564779367694124776365782639754232204732864631109404836876417715043024946556276364191576206583633833978126074969651944514516733949246161532100316)
    (by decide +kernel) e512_58

theorem e512_60 : Nat.Prime 1712054127909777704215127144039925111286919851485437820916546857009219501320310263808990527093865097995661959904299045366549613212693200906455768185849997430249240278499054455387627812113817489158842726376611126250755287145875719815108914552241544577581608528275729242545821343214302173000005596449150905958174379322188667716828676959042837374764502037479974384162691882935018176267294374284679323073311741090144978504393554823485613373060518550408518253955626417743896976809967013682663767857681236130866360342036570706824096985161420752524770434024487916622434017186577224006872512118053433121811161692219984489275309390953250759655144942556644416824031229146861701558347779450800042719960714932703879490010155036449000026661063700342734832730468746488388745323737606470995946116528737546502476311097687323174737327175812309087278034573755702757569708697026866674735708558410604726062348107215943230307981048726214225726959364889 :=
  prime_of_ecCheck (a := 1122249519232628385391613976133914208889034173407971357769142453418169421739025717235958218265343486420620771055969014432287382727698978813069467641199404554708279970109609853140430961687849485966914031174668658645959694894577866886919675428066562900221179899611221713148441164514448132961874416929376619496481786660394866586573636398168425583678269856552127272114277399081489519217833627599160528734882352578546931012064594387385432659579480589383477820569762691094218292553719173722970917732128351278937344990602711741676645476684724632534408756958355904615270996728698783801328057650445558757906268952242858529796998848504601551018072477865193813087591393154427888928976646372048894038394178311263696122850325846034926452883093600795075740162453239807211065898856180296501831014829126632285010235641681707278800253627084294482561818302318187832932130631773936920869440435820437422670864707077479616252182703300320464800023928681)
    (x := 904867230116140227261608384300882710660878694776628250139765308989577029324153215076577459011151816082675588918570099729205930672870187982429174089552236334079294843604916893189383523102633966713082872017359036712304331086443684211690538693958869043875263567922345977997081570341038092450194282252222555800027661238613879714395539384131879618124891463088545522837675840233424031965651891950385702282976762951861083163094637605165430829894509988706121877969067890451567299048992445155627793008785192412533893487052529122879792807397014860098446950626634420034177387975003273999576072093830412274927961068108336860459324404352981968506568635299504413718022836394948135985205536466460182388600684142272950389532732341157451556574371428000329602559673419953693915646520902599117910755462479061667988946693534422491757565151180458324276986802002222390357233016624542083931645203892471120778233653329360145806335207644639872001622410809)
    (y := 353243556924557388598340394238589407139484357477173375179839547979007749084109896655217029229455711246739907669507736191155132427376209058661470224448769854108330047389625525051365408364313907315175633640119932921238144018006786647443816702607271372950134676968280888016717871287300301195017116304356682706493951909280669154274087775749161875000903278463760526446465214338071179869265803973810567006231735507192339599173377483164676646709095660444703267254008440550692914927639313116793871623821735832413211173880304639223536104973249433905759694753342475279688854824939668038624373724533091792301238711912360964044806045208121105663301344183955686262641290872960703809925189347641712480540877367304411277325882209767028552653979435110650710299739639667998571216871351956998127967963820049152629269224148075903725861327451046957907022207800856917815883183666745669762243675444402563426815533300269282965068351887347231007503081682)
    (by decide +kernel) e512_59

theorem e512_61 : Nat.Prime 30758838222455058970881804970144041221474371626155337437704319380615878088924469582519419492507259135580079718744855205971201878036232089946558984060841804807297138271532930920257222737605874309826653852503375977758221750152839287961883553182937244103296214767441975274821182853809082541898619905046556995213042294929225942054915254376053042717581660584406500535603315250064929044206298852242076025174394707915286070526043510746264990091086227842960146200758719391439808932002396949991191778609756622684892479905106140787958149940419822807520912862200484441901282538027215987241734121555508706379019202286480760873304097731696088453169079407510056749134213500791578544696651759634605460463127969442329760270268594532466356085744041272804628526648555025856669947427035449494276879227790500451002487564546601859701703109487429861903366994023576027207790907035306027857209418895624399694445744080273106818570894039591514337151300104902366242663 :=
  prime_of_ecCheck (a := 24581151667837344464228428619438947265921929638124154806673048605307195655974995008962190009060101532103219684150106549151504578510417142099577352846246201028005814998330833120390947550799115128297324606228482908678892383949302912704066473858338050290146134979457709969085871245586117876078492696375635625858784874120125480562190405893305770889398381405802127130776682436530356338488041308892287752675933659675107471979004468060811476968013715637329318998994077874752114260983761166411721990967935966092725783088308201478097188214865414722935678460422146363167513797009409664085208084735602527586390755496875645810308242899992289641883459459353451471091504722791538283560335538922349458426722123026497382839433998114454179637850887168465048566654494469544343828728287157425662865972646374260810796985900854738677875609791306657799062054918802542239687394828808033113009995512231369237115483264323574988979782960899774258849135927711139507442)
    (x := 18853869409687088054838306250849098686394228720746433046868027106099499588840263411459773413859093560572198234915913860623989262966745409913876461269144381973433181134133317478843391197940351987783208671657005232841494675957008575675773525658262449866594717764455400332508792433477551202708891109211304068087821797081950610022281263729897466854967083420557160684401592801122243854293484869619615027154707572176310377798824952597128976071484259716568253426604494506308762116146400179606373147112518960458337128903307935906806936578772821483919126524441201101717776357467387190953252332142227445793697167950769992199130738391136452279956235141188250356006208685450630160462856245173816032588281815766123466708345560436505128834749153310224299488499502339730319876087599752160261381800971232058655413393867856121778215763499742585320385555749584667892907276598345154179795284983383850455218422730424357318960118905994054583363545618050731114650)
    (y := 245386357760710263907756230724367619438600440910465296822020904578137863398739511376783354977635991782821271350789107104979894635655563927520321939048260894322282743815871775332003255541927850162541193146711748370701018307289667608469706711253856962083880487243854994332869950107004059797850747678341416257236757526269634328472388605189316836016069356879949773387641141573668154447133054348317665481325355327167610095665190927399571652137609907930552141804038267264046567792668087364772848460925280933411352919180948311103037490817680068294499338694824355633322828364327543785700573729951335164820883651191282565919126512162295699085778314271276742267028912578575529650699901281548124258244944127533209981314859153062703404382644180244891615874227110904196351719033640433494015145101371052895248872357761327349210149873942286260081883816371509448305347759188974051069605391766179450480022255491139873943872995946766122788580643136230568236)
    (by decide +kernel) e512_60

theorem e512_62 : Nat.Prime 4671460074091132329292790254450723214571911926258451748733412734091864874437293743631557001363809314230957463948716844968688725122266283222128458870660773877073589090748623477839727851994167040194659446949962953408355196105848301578337963464807580956892726406540270099264164477221893040925672816584784046111514637475020219443079820497873534709994474787710056188184728260453153897895679187531307587197200645612339590571682207397307789908446591163420730009460582497672627728208920247720453432115093211671406164481379757751348080078482306577957886319752052935361649391297177177530641570776712170594410007813177658454817824778648820563438856851549802908981930671273671633071612532466002528233459929057561421044513098151245332846000180813913217145087777066146540894850006739333237980557192561378306076513888575990516679509775056344300547167550845587185537311229736805051585444351888574851492536440903440412193502839291865295530306637547819847629157377821238747838549 :=
  prime_of_ecCheck (a := 4399668298985837689803769662599802483973087924316093912117692572643032174124592907359121394253943419672344997753113831237841148033083119378766318569460067149126431801994640965281751367183152942417395473938631915412029994291200459978683652808742354311688189305542447839443809381752621447845417788452611364837970492507282959901048987401634045969914036855576408257784867152259326452963921869982503817628652779096889858361521472744259109251185877246905668789689191643535522015849360732797652226904711350250527001749941517806873444057069642922752606982326566582589621560605907569951973863252298448590311462716388694304245565406006616364180784468155056312895539352881932337020791404896280118613254354205468026134949989637801201065085206115405352182928838758963647221066197954602681270150287141589991955011697160846125898011344686984867323702153384221871987191923750886360665779501664347655392764770490434070501178014432464690097954950099922001583855885280924051231701)
    (x := 914420928668805516909363539912334125212393401083229684151349225906150067538169294811467610174584921156741028860278058805719638316613837836754233770608505488847103107288152655321267998266245952073444797680516173391466803770115748651580545748543184365984279682885363787191960291470984612441359685382245261738215939174273420009297861191368194985560997350534457141373455398737445200625461395633157574046405156874869023401941876975954678554331621932324030788166059299210374726469394628908637425935292782001644972325536721746174585185312646121327909412472174062000204470771421278955624690482386104752755624042728171193850793728395744580131718272413422668346946741810310879600050434973204619125219229998563876784344198292548593135450025912245448639230805079350874451551896264777067299571268619195894481610188391665325839156135671351099007776144820246427156671179189262843443303390367337316217743844762536237744180381986899427709161485878555557406032449039581798459883)
    (y := 4118964499910545641773050888476004000112678592193702717638416692618512303211604000057483739515747107629497806447128796091226791092989595042921768654526182551239480556893305353896573733047646816843354885904788985916593432514042890109127591188279351886223914879411753685914455828388294148558474280268207857721028486871300695885911256355211849188333576812547651706783819072001999687240433449367130974187329803730611099375688184821316285580026589586061678068746419706806442833088690355710180441669943452025956096734675986087275714042246494906921552741163669951012804297101101211920711380879763194353075358869781936571195883312106483713732470048956100033714085649249792198532783938456504239278334882219024611459342355396628977071547256265657319173100391333407912890887459827073469380595831052610618938095139938189310710500395571876044345210046053052232578621752541588123881667719395734242151945473500868238743669013275460549409135526206917295668958363312680474997779)
    (by decide +kernel) e512_61

theorem e512_63 : Nat.Prime 1889905889396748403004990716237076723723136650872936051969819614676875355935754586068369401865948128108912618591464482095722267085284985898322528494578896763606824503285806555818527983790459686245359669877397816877672734181456504313862736492538673777516032994418767378019772881274515714693067949097788390682566485467413540540995699431211175003902438516042001209792626358578587831024969289005299999618408987957268542716598411245698838463745253812858846916536930458379001888918481278147083268611223434709147481587212687776473953167694816179757704341789433415513487198792763513685317762990160511849522958830934460241832006532834250894073330606124773885313105039814621392034950729075207251901280341043804292715060853246452004433657968514041121874880685397848498870047969654908118498620940526787794528956951086463148581484661903343168119238111281209914165035860232933315132961999380670956922933744714774019249090800935276764969620336795582428387074008907067217726702544191932715537 :=
  prime_of_ecCheck (a := 1119391928750799064248423485303158970029084075610517151004169048467548061254021593167967984271583075052405686962591939279110532371156627138272763972749211506042314998220996564362250400945972626343141466613394861319429110014822818478849139278479678377837677071709839695377929875843002796693818258305680149140136907269638626534339533413032566120964509113262987275575712828709160275817688381976018958646905349432651601820114244876135621610858000598199274657780750189338508405718438571476393239343631825765111617075949834727016160360013339121488588146740986271812726139328406126714924996082251523610488300654147551551170490082148113532305041721731041841142539644801860995813131087403163668157547999487636596774117758570761031765410354236631991293427826766300750295804506725263975090365530001912047726065017981955155261267657424164469368150107944919323866642033370655372609619006518718452599386372366122182297861173969681691499041860344702382209416018876438755723985718793053886052)
    (x := 1043852730041305130845774446010843187379374022865160264031178263245817720189323314379990101289281566390226729487280453050167661514708235927479153686424234122307667745692164426844701853902463065958806994437325525868153552863496386245849967464804345831743367472790525709686718485547823110731860157698356635021349661664075901075398839353452912375974147654042313548907267576464858963661428382217251014386497568056394304393178365564668670938302190954832112359423903935076584004583278728746635503892001226302706886607758646218644811472713260565177526578016009723599267890448471989916884355785519101415181965107584404393510249353441626898501942122526279353801285295052291732240335213052772990645375369278111283908002169550402528258411114701660162124921372297290923936034610032255226240184102921392104186961836689106069442359445193961175810046266841878623130128806522956076196125075041323208652738453848634435590749540040305366024913861259324059532792347994611713177965646646345690417)
    (y := 1337185424051537669163077390655982073878454202427678774397769388039865258091579604991218193299021549631261962457258121044894234185450202783511238011256320512894262492305919588862955230453901628409268390719201604109361590521995084384879195060954705347326042430773954124824198896679884081962577352285299098243490444402307795043757775847326044043086764595917058755377485739666693332487200860490369439217342457375016219777552424284781860570795795525133934184645025318706206997001618445603475880934249321626779930120069501800066854551442758492110891045371545708286758331629861263115660332205725609260058030583635438401054244014785789710699054209564598797330016609220358501633603337696212535453782977267977595266292355741497510877300491962299887346220635182170837104910177047903737219814400596430422098666457402106931454995711164104050566586845972230343852202788152742530209037480741078486042133692689569004534442886667598321322445306990401213863771801611481887810803194911998212343)
    (by decide +kernel) e512_62

theorem e512_64 : Nat.Prime 275318120605300573038779202183868615326861959216685414763111148632321763625798658716448920053494288653264635144809868516996849973412111757889066703720002975373514100119815351049999312290534105784886164755612663140363478063050630164158502611469160368110151655492982921963063632132583255484379669729164802235537608909711183571803906195185984022661486785671563566241992965427604074145760618086544279515464501673702971325450730544293869730595218641143874177791640288806293187925496750953674784388323068837856804965875386170942490466730626611420165734851220006261412610678165118524637274827797733017346484750695031070621557766274475763867307710214974955564939923910118288827702648067852906356451187718857268540308451811536267894009108800045810836416600098965124759570131528939328186779112429131185528415989209045427788870933725511138580896668360575805677631030992903706483311753949773439816314166121968578002119694608752423589760500323000318135360454313453840318239981937527973269671581092781 :=
  prime_of_ecCheck (a := 15852873686603730287625217682441720290290762934280521548904568018746421331984735192225902190291898391870735044005891978334780264694469317104578693351327582520785625761624127875558986788028352568358099419428968757666167257141417701329700979758923711647033199954140630515162175152301568342056005538999259071526681731175438983894026529604569485495483778702096763585218168806427346160134447045579928570549226128480403764203476542159958731000979159905720962499992002178983168798587924478028466013240568818470674865431531920063438139243293973786962521288861435376464133046187661207479344496898468469153689620040631984701169432077786691092748354173525644185553390399809671205996099544605547431362660038316105870117269078225246403762342356235456911859034761384436276164192766931208789369875130438351888539593552171613062024118769676060514344042970516222260100027865143454934611212115271169222312805684113952635751803092911953417095386856795720045350265979838398546166614007639846586575192168862)
    (x := 98556224895906610394267055957386356923323926809656236943282441417820378913417735387408337401977142732470742782059684196106079188252366487932577463351438755825678327855399735006402618816930120042911266299711212314203644127134474396804433209668111372533858674614593068110500119015169379910003813039945597414573914870337115786947965677628008317868271620244805706238279504637460291451593955321183981531571973635410531398703854923448272497605444541608186373390396414783023963188655634296572444011596130234851799487742607567185988135404820515058325882241949102364415646007520624063236756732574466000681919146564001504099402088568162475652339826443778322740606591802022105145838942017195821567002089768320049180811305384992312386891757454322132516577007215801630211029788968987695006982045822777437077628188827731096115685372036395233800251652632875819200337363588233173794478181428904730602033711083446520198013007889542943294871348788149361473863869721429453143973406959356544881289873583461)
    (y := 2266813593897271637923441694099203664039196513240798185912726565662861057666791689363613215904212869220494551015725689805729861110537060247683043085036846434059740612544448648254515880123281067756214147275751431232764465556350770776495133424189547266027890229136776216631542338627909963731693568972524419961211090783274265681444489243399679452653677195026924050860711314582349540497906425689692234237969698738224282102036617159730846436672793971201452305007024768006681264973962547895089063094586846890635124656668697507353267427379991927026407679493650668507102134665049815547398696736443540724662392666820950213826261709015165486953105300830573705530835434897628388006620508907397147862533473980862636615584505993258290422139086183750161405405496600809858859657500597544532995828308338641171262979117752019923363104642275076059160355188798977202766392511756708361403398411811079878091953499108599161741935259830482314669725217773796058537516261751261787728988363032714588500878251001)
    (by decide +kernel) e512_63

theorem e512_65 : Nat.Prime 19736001578352703044343713968281221002191678512371877068093694796410881483143467925434010403108200911753384916920362681835553782818500619830382842165360283356084570334789860257107379803429015483694811837697284297979218586174790516028593799987477757465308136808651115998199567011963642198062647151475101761269727434619861524353895829070137022153244332233146406978054674038782695707464173826161565696339023243456380341845474565781589835463049160445520483020278892621317940480473098256976143824137557984407886643110153883887960560121096086272468561245253384413957007860296128050227470583177927799699520880852558011875105469834307279710887774574719540594929954523058578644086134016587522742801913628842281619528340968273231761976941345301203611854770967203064017001336530228499489302899547883322355578409023737954675745719542032422513801073675220752297745016141799916494966505756001099724813845865776783509983292173272607126165991576912629216369710282145753245768104523558312656451820777774467131908193327245196143 :=
  prime_of_ecCheck (a := 3917479723961189386628074730304326700376922956518626714857318004726479410049940985669845905211911516451360136253070563035915901658709904438961372661713911630833721471407635633082370354039522447342302791508377075647487924450176314376800370335073333206970479070527865633916832375261971607516251802647142335328180727521445234408003049506450137281307055939464021735057548893417310217753322098573112682683869031672804430282303044775429579327348226030888945361665249967621514497681663987023644966411576494249258424165393774998966985979745141027743946590093410486885126106710428383948034418749785125528611091459753601989944816136536730706648205380964420017428906540906531190097136514230309469557278143450462137093828262943907152353459281037876113540399552544805400393467101183139897405605289251482397164148863396566163879977525298539925860466385011591391886461041055502952957053909385293766104614712169573606562558677165390740861832996207596776194210222111991026746120136700512602094672451286528601413763473460953596)
    (x := 12358113754439571835547707247759811756308452441797811708733083941810149078421808344724728239817373008567789233711243664838572376142013116077153552602861606997600213341040913889891795364715067214733230246159252512318104207927950310956723535672886715331504790813427502178008432514786716658448808394982557939116165644028649404226120596170203157038654996335179905902253013322900694807022059429515924929575432572386159886015461920294201419744441851249049686512553675676890565195750659840100189809795310011003032122177888646980580231894072481171974695224954884275635478520631636412922512762180891141335774772095550735905804209135019197349866470351446500701840687959171448581971434745124258922759057643173257788164015238893975187207288514462931234857474483714951913952090669400176111328219559965410399776084627197025854090973518504799372884752488896651924001031121419327534519834700198633424704213641080247157222617384153177518509461318442954997457014637322896725438616063477182438439469944517089278166307074067942124)
    (y := 17939896736624380501762560026580008170138766678141177298133995103979505191239744159314100877517929790134494059688409240808099887471563312438242366501978726202134827125487868660922681887314465716567424609005502895194809156867616008675109515138199771521818042607487117603036423462415005367473252932402343036037059056413274949558949627689240510402320881613270935949643682387347400757758286597066235891690834055246290736728804393879906387304640540181580406857835182417186657318137329656632244179327025768185511782890547232882783341347953662051316662853215721234339016797311465530939163126467950041100874100905277113996264500935542196460716483622163177853187827867920888270056651883098802554558103233036660650818073389243824460641963916970601357190470765133956302733816865080201865369349742204444891568379746897402443251147024842568872987725306206369121580458132057045193447671003913561429784534478007328343783055790069056184921008452942143297747154722858845009698355462195060684788725702813987116809912293316580144)
    (by decide +kernel) e512_64

theorem e512_66 : Nat.Prime 1423723173927631257469386124651808189954017196817986767029595845663772721590290095674334728543474766009579055759788990423888389911425374710464003945026120734469442756505979381245660763897771231806088868315216093855815548741955175978050088376912037054410064135825113126205464240438924770553501708226265445069198130853298854658340001854578969883807308426974625159892990565150153063610933673488765122846953178487327613523452847656887784532811716756801864718063176160974260807155421298520608716404589657181394087071554279778406181265002671421547601557788513958061388439191701605383965721825776429809996698009878110413910886443755474514719327122850054484919226159570421329627852247260746216213267387300757233201149657412176218239055207690082681240642655583448025165413425898658086087944300151553619886442056521929707171791954531522912099345932379634347439743065337427567656061321876651901835293733134842507074477504573458044200355907499371899610964556071613148969075976995673333039505534583317466843961833583280971557965072895511 :=
  prime_of_ecCheck (a := 1247812858389811731239589807610518142475367409511961730023318055924818570050502532234313997090681721854697400415288616346159768771246225037661514832596485410504553810443248345305778220881997223148423607242813897561269400269027462764034862980842307149679606147218050310169376647880246034743430566386833505564208836758913251122619921463116429213565597373676535466416082380987086688320780378757825400274049388515570283671666259054050463416326129773859131030066296339251504696690807374740446632721333737896364489375616087899347718300719866789347848717275700244823578318399512750721662472464206640655876727095499036471564091692226246363823210441595095678768896964336147471863921827070715978735909958250862135529862153756719542988156652332780334350817982903268340569904597349516109209631001599527872829000803690392212758781794018931348902543391645868354757888461292764730971088152901087055351806518622527759211640765630658342930031680772361726112190348293452104510490474889135908283953114148783168498919798637901693106958382277966)
    (x := 1303189090799796570245232801354533121587792751414989395975437264675353912364355203393224978662876416351712276089181290978927486894575797810569103273482649545197628194199990771255373205039862142760553561358151692495206772386891427936391590947557183741340146063708176643059087584763961194802222764111856365871037601021779951245587949612640106580118614936711363122362387424729267114155870134611859740002255788451741725745247274197170985054538365957476114135422239634607512047404579024105732234381249974376867895960498749198911484394564159726519967361207445580687733506374007055748877075476721616849357753564398351514394701822391310774534812265766818789303057772001178435062727703683594982685774608583848508486871615842755407571986844664918257074209122234162163089924707061578256531455259643873777376512725189141069718313406359897647576321265590163074622393601382261677622037813465697610338688672399543497642102996737300499556729134842444298467544875638829657117844965666812822176344781766918261623528589450411152453425549745403)
    (y := 1194644668856367085634902976568667379960579116505936017658277309197336324735263044787125192081840329444396224765643825123287488503633574693700245916412857153698509648541837633730479571170257769357259503202330269261127412221097732606506148658798133367380702406721551919783436135543967087255938366451163083445634442927549996239016153828399578192894166781948630793625986933073428541304966100584690069667880063201537179995019216850097945439165323443509987846405686505960783185861297823229107287985018861164562605153869606886549989771083878200627257435846762667732592896793574713794821533276008523778417677925187294215525646742379475791976140574515409235520290262199427093365684504898026206649888505479269404804900067438392385664530462806771558679629268838386989851048526437754715234358639971399835827803008619082693254451922643669083643323541734610060127275745248745264253266393685086007694664495107127309083283616601223280311800643494838791838937845539034134926017148045937996153226835091039416909401887196846624091628608344463)
    (by decide +kernel) e512_65

theorem e512_67 : Nat.Prime 191032924168357924320704525242480275142819992410862428463462241710757405035464610578888875676920888691756897776650457728663199700810192470199261762692054677411836465024121977330948847017613225324354260322911739383722789724617184187628224759436158223364052897035566789331889646226984411728590904056958608265683229841067690221083270744994253564812029868259363872238244762964047705745828194420690488848624426690766681205706207892511901502126086756317765861946670004186136961242062508689438089003454937801852581836874966509767810932663552294362091897986624499100764532590857283721953789242184912959273523280452422826905187369333851204477510603112364544973386889470020196210719494800904752733735099915688591511366236321317073454907679528221456406728992251039290718398338877878267408351161721252489477865294514002276677108767584011201495501926796345516601451655672788437234270691063333187996033941941314552921638047316092246925445763965011694848570382131232585913815438918036599116404857300332693546842448485674817336108712126701447686065763 :=
  prime_of_ecCheck (a := 14021590402960464245320598884448335874862888282091265303232878612118162053016342240820711887385109332514673267613212344855634802618640858077713993934017467380249806039806732009030953862552099109905535468680884964941380495890318953575816078074414869504133204141520487926931554829404274613002620627480346669196752201458444618371676336801603248396676327337161906903142414545725210696384461919594032797291519162802391771493131063098012978570089892449707742385907831577749221387058158576440683327409573016197781938131000932383393136079021049708954231554061050461811095107914465779673764771767467030754149327361209560266033876298568523186017749171611070802396159664900019200841050216352511163346748227921212414742899950642275600666232566103933228304195840138735219854609183965598011004018466462486981406264721524524455806224934582883035454287247644688457932056372074849059714885684862012501287746454179517476925676044421633101166812493011508116200241891428027059298626383743119990638077979080802966860720953788180458373077982143215641065549)
    (x := 165080906257488277665685820979380363153952562235864894776865648938153387563264019121514197665270806746780376324864810473226672412449721524573833174473303063188267760712760898510777705243848412380772271137695675763614734885875826620551976048695218944752234566592389529358094797458396237958173305887642941999564305580546848974080756165150277164067961851490391550980179891590970081233490124618720354947218323590580277325283825541308359610411513824007069725616433501643926000829163616678222201014767397635310245571134552995333685819302610337258048165670802080736665245499307394946292070657522761717997320257014055617766507655252349486119252859981471863876442421166890925981324003644776038605598006537641954389059784929363511155074793258208804590895547765367889905695162420653503115024673733749120176403513901967461717364374942160755028684711601384967919144954010482775212698077110944576752934417079557861170579304481267582722064626488344992076300099968757285003924084400120330666308747471011889248357993800860217946390600209361873449254752)
    (y := 54734591381587817742500812836830414907270208168464813410453556860858786628360173816483571662895642950378438081353326996717074290747221270297740820818212038084470960698772944828897706588325078634682575526873258329653292513173927323026527362052424982696012171002308739952561006386902628527602909180865867700320816927936813960993913717725130491722690249633515639928360356423187348786720557983765409193344210681508134879253141214884167909952989822761893025303226179006974404496255950542029427060806301322993958924522609244291078289909799261165785578006685231242047979339772331594360132285568990569904501296709857930756531627637921429753890302441595326162413962169656882640531205045267608770960491150433435872736522105057892787631125572754168230507642922515009165489671358561031590507810066846107463661436191187019246961538007229868763044891065501508569199851727808222567273754592293129573239638390398251745900136858176086651691098053983055681925929677025930817450044756879806049929743287924897039881799428904918097855190926481134726317539)
    (by decide +kernel) e512_66

theorem e512_68 : Nat.Prime 89541199140574683202844653906307069863884229573371127939897493094373290170475785986205812814574837043617993873543746200544413590599106689366330141219792780079050643490625231769027192125301604765446052525763227371580079915207494869481952832795534510647414438689184251243386035646771605309801118632965450289564122506606059578495838180302389741845996176760035999542767243645732928891147845702744449257135864789214488632481573229079845135647623495047852262247852170079106777369362216531860590328137292087250571388181002101118212301130047051862763900316720619281236035768567435686865426491202677912352844847449094714968850424347234820326903188127967468924574916873456222465113231914665470996567657381576685093351959647637219451059003094183513510624719662606967483937131310642026067573943477244088114417634884671013060010658765225792923646611275285467649141760773677519066953284332794682063525150934904616893200736829147792466561797286170849264238384574409181225492957258863003435245767667504525486160505277557752440832230621082023624341980494757377091 :=
  prime_of_ecCheck (a := 23529335535905080062364020640421877315632141836865887451037720611273711012869750961272420162244448538746636104938059255196814017305890535388520961330104382972018789334145554959520742697673750378949305349937462183546569677594988136221307909783845950476765756475213395142387527412975129621951758991461844865228179065249067490272152528383435863655621021331265585156234465949821039792555561329538761785917272517180580803940743555457884533817683095449764107597312675315215062295574717266034173955783866020969609660288423798093502599072209044662711997066151541028887915861196289490358602720313538749150305733968671385408172284615874315130168803327980199272166867250992904784626321999382407684902462848933337541931166332475742310357632259721228597633964966722185208413377603930507237910373340680718625819130972180967068259695212610094807497834915570215296319117858864946310855500016461325022815894503647302457260620514573359163562865529572972630984008926276568917601635043304907924897567333670063686885326517727580552717848232834959315479487980291978088)
    (x := 8081086300623399042931113480069327516572113381265813901417511751815511799990757102566106938308217085409517856754108004872543362802743912338775556122343818608723245014114134867871576012683702954429741317812104067326596474552631903058299192636764606245276679583736567105701072860253543320901502909233366347058767053230352219972643451109582750920783023466356101352798576775626778499019046158328661190515738007577480285710680619472947591689490072785080639844963718944442165076948078543855535631226811788935534323294348237162975770894433458056976789425501893831819136739648642512322493766872116148558820994377428263274549876882937772604914315114450227884060292177199344603299451740592795735202562746048016358080420277746951823338232377990525182821601300561499697963782080228321807222783228656385253870704166421690980608863177244545655437223514368438908050038596460703004990003163629550280244152569556210537161969526184176669514219869255755507856612723861089478394520113312234072178634392069113246824561545624755817219769996932237944477748720396714643)
    (y := 43957520126975073396873599631150064105996012421561626260006950980265718066200243787333046737981881585884735893269267410990167425733539976397841107652143693216925967343554797425055746449570616258236710466776127741504615028218475744571386737055772291281417616336073568421329980138342246747441946649685953105609125849820159234413608183829024766172397050430665392394812195664596958002960956739477375086108200855605784843903088751759872798336966067674542884680615826837746686413126321665569977515891291875694160212953665194888498931021290359757867935028856180204716361304183927520073231269411229666598024892799619582524275320988601188485067224525570211089834858654997862273050997463152703214580182002845389617516467000466543958798117962438229939435309733970960101026282020195836407007292086325691497144116557234982805104524517019921203191314456713461948068011279689752377473614755942227169357782014368646650325597972622511394873881787001529302005514576184659963410146879299591933425800243238239262695231126242881441421336098160312262069477052865558651)
    (by decide +kernel) e512_67

theorem e512_69 : Nat.Prime 263714680261240323751304409257815737100504963602212458472643479019207043624411363943495677167791074839611712342501949803680794385519905242067860106327285640654878137043789148225808198622019404418282108639669764700548105024431064117216249398234253943465020114295295605524241954308051856211504129172081285987467593631638514731215637204348451312720765481881592545025368602338808770312844138763271788829783634852304359987146182398101691057071260822274548382170342510717073461252366104798655577840852405497652376089328759225165033118659940228211799053224326283588875711959747027559657567773540653020209265257733598911557852175320287494220861030995398272748695198943706965649902753505351433634416232575480317771330780107702628157575535941056417855337507250534451914782629405028936462388485448770720815871782077469813674484443944331234395112477698887177736303959184585314038991690883042569740321861635013313763516676590156311664827374964023169807112437061263695303656072666562549933421111887592579620915306684954979779178664670877084926223165950985879109060207 :=
  prime_of_ecCheck (a := 181042376291804212493250834897664191239193636632932424474024048470150865509720808890283314782929442691361793464692264339400380263816711039066017877291790362871397666829781268555483914001162296477551767365994570813967949705326445887964572439708543790101296081053927614803948672385203267179176855274453981631932374080704484963744117056036290560640948340684654030991040245623429860874362934688283045149209659857470819492479268602242975644144307293179613346567504792679180924936801111979942806025804603208493048436489317788475777880103871607712455941050595014827164680246328075203021167074821562312456455499765541652321102037506936564964704506007105690474083134046028762555089838932349407459628091783850363623102971643952089037925788069451014267756092692755885214183851684047152536481407407451511336147028109055649357289710004204157629282136431693980685135194154124930926405607348193858591668640285578847793679115291939296565838786978688784648702302944968762132713189151177707385808066794444224073971203014068238324935262849821108618999373630295999947480370)
    (x := 104645447931014880972011145410255613091318963971550902976398456344673721332949278292565513816512271230155472271093813274384028931137913870498297226409649233984327189598870240489873415323757716852507420082590962693230956206430185189306071317543289650199422738466804384796644891138494794047992672622992678246400747567820980732761203534790807073972676757406626407365247820610979019922597755407916297740241740892472774599073731224463232842569252810094337396826328240921208552644772683905758572298316190385022984105270990690975940241199905189755456652891031989522687898652592286185525452771754771161951386186474225262950118728496219402207701127369565870124759944337256764549419396078501613861728580045371128302916965849560336226243402078594966964299592353429965951939968166979803116764202129803979838606486889681760850231499379155072048238036052871642644496567032258033725702417134393260589036411175937940800457785625393596390598953167229822509831595759929004320288469799414968339501688715457482011583880309779724959851418988480731939364942286657152215996468)
    (y := 67764619778312140528269106581082744395587621252790846615866185031193089747736033558037827158540723388018098196078338079835770796691453633933399817062282854103892463328302993584355697153749477052637165869740806438021450470518008551365582066986876100397405631878230304882569788371285774095377998175717870166368271913767750901925420049962543737482209754806455092754263291325955640378696962647464358809367986471555541464617187749638311436063553297063608997360347860965637220971985978661920281143569593245382939315980835410291298575913411809615205257206545694347105270308258104759837047361651550976074528421131816461963861312221818330000420095627456868907126798879550476013321379456234830984972847762786473905708204101085451488269182018151360068733750379312317252358733242781686401525823252060341567242777434199377169648167891002438547728295706955057112713498675605911824845918787428436581787191263064700028291165629208239599703374199018091969439567264321553806674297104241524840118384452448878257526659800300536683209436864121898910711940725984819765816783)
    (by decide +kernel) e512_68

theorem e512_70 : Nat.Prime 16958209639749440116424799843996000625029399928969766683775441431686381545740579711572274551860623475406247837568991730543759899370695415478525982343321933675616516089973010987245111034497213307518489035923777574956384173465886444174355292730162709689426853885100918874471231503739735128393211580987898663374474486437920262082350240772128025914540758201719739866684171739798173962867933225312252221490811776034666158740637482828947925816154710390941746499185420046581911121763781742112640354153021730743350489572322673883793509076796792394895167507137323537076397498231200939569808762049504076341620684983246404358914888080534896486791357231317171338329498009322713639590866743843347246491704453070470796153187620900495393756157696720706523098878505138742504342817574334881799518632475200657060315101948535062500195819431757363597756158577967455410416622310441059259118183631671086506333853081792048121352013941220249549652119030023823090185636432202357495471858725216833268208585077492776017218862022898729981222551299886685473855062058063907368018124099597624702933009 :=
  prime_of_ecCheck (a := 14319894571464184133114529571135548193940277633499745338277196352276444583296057455169192209505040953595824524720474492024929325796839560952566920081812651936138200269791707129754730871958036870986185949720602015203961800587276252340192085519894097810134112627876126179980613055766592039939294510508877683903281514993535735829428547204159758170716649504067926859969247139821381070386496703991325115533039080807491199529257804772309957791008873460766935616172725604659091728769970716829124923677835618604808724456839583388751702122924512518609184367852301880188389903398102364220114920739372825380986965047064063969202963651285196751625400001922213681235804633908307525453678435532365369572023122174823668416659748646230278789580116004240780005289134456788331876793187067795210580239246620513249464690726433492600626430001467384206303488140228871694341973337109958711978552845084151107838133895210946053754252600425358955350910724959809752648173509982912388810602922563261683875942330824256107329157080363221498256601235079299498478675764618601879963458070412872319484196)
    (x := 14724525059894488397413022132191355730946605194326066716779662966630271899364172238327406395840614701481369416540402591036129190250428374113709788388316560913140591211083292146034260223295395284840476966650298119699319157082579474546820345365226674657723436692685579372152630344545846338035565020333894423907878790043588756617586481761812569069792245801369724107056348870760524942267871894775558158866852247099757809027096211616813077701445227536785599478993034005172701192087131926877162360116715020287576421159911277512473099463525784943827185891843380559257382290271954872407086268327336254086075986751216677140567488474513762113240175993114493480480051342426460068239687335875418343831918486085657759226299097933705200479258245288725569980282429154160545191856650285442853929286178950681171038192770213357479336253250930392253847645738279431066513008166679708845085618907081048154740723973644555404191273349121798726792352503049974646397378463326520715046404231102624552570066393458030254253864434181310347818903138049303473810852658727494053310826990174721832797014)
    (y := 5821317323114235086111220797839059699520340817069872714513047603048795086231782802794732123611865064422978758865469635295778212429345396800376927820202827418413716181339178647953177680106134490557427269629956302366562166985466899699683341655230025618939028182144716269616218883718597450191448136858751369621294021912558007379818551536052166931839023477198855699408361254654753143007209116386873346478771831122954914029951412418554750625455308852215684485672587329479369204404438039928686252042138100397023139917311651641646539834853256435473209434607921099833508649703632971710222505845819284081385239780757265805627891882872443753848681970186911306806114397399996133532570481377688726798417853498033349150343179377488229705243341581707743226123811119766700591329426753029118530132124230058914792339465897982816851015290688211256065416671923530801939888182070959799849943741171196052839059638403576845404067799612429824064750061226903608431328311057889664957529440013956248099791803664378539102716547254529632483543026421838326470875292906597066278990397727351110000147)
    (by decide +kernel) e512_69

theorem e512_71 : Nat.Prime 384371031930230425052618783383247827050778247292644429336017041118047121425434371074380917519796930495769948705566663817332411708198421363549449161551637074544181642445272383001469505538375212944073110902171403359117338314875446182751774532502174611861707706824988819905693675121602509938697158794912312778441232950740397879980630357937843195085253711892617043755752899452310915645918780671684714844569790246199239492794207504917228489057357295530089228024560410797995302883539967170960099373714122731226287916188070242939135358369170124294122459600188481644758770311762586590519641420278475323095648436052082425964827668466444426928876312174280627903216363076223718585790182337074403174056155636840401507876807690022740384148176744693820530492967821366579611202152574769440224540896712445915401077820938771539042104536361869567181508699270986579644606225015705298279420719307509046497393577878357769282413638060167043417684980944373660647852287138900004360229141576133661000604916405081513228664771015135775831193630684447720627216056758180445052022714155730333452536086574867 :=
  prime_of_ecCheck (a := 136133099082779342048062325171312207750330372867746800549721497889479428865455843481279034929426169095466857988801750605726612559988675730926918019321001347702571575789922279515351651994615982852067106413971517676113692693522249883864292688000633967948852740593318390322519060945965890123598476237414439899694890773974457861356999569950323714042874067118551262109466627769277140796572012164351248515692376515223586531872848780173618112143230484184005163554002792507587076073250820904591554582572455782562644259023967600918775484432533290584463278351356102441931634046008840535876188125949636618354341424864707526261656667256180681660478854502527445228246203659382818547496735883863317267868979175353618047687654755677977600751053252928392778590220953755998909100222036595568062569847545421838981688787374255651206042839431346535501562454143306136448643482484095455670070184886864019662507894954094270663717891662988730858911986523123633803308608969726542039593694256255891986029457482551186990359429371034905517918615570677464955910766547944578663279861130105574859055777867726)
    (x := 146534990912505699217198817558174217021573983302013536501272266361277777067860744719736655350725109777773599726119037977487555686295910330305727596542495900297691344763894211234760440556250918082338798797530586371026853477388870038891384378556117716934302640356644112351385667932214528068494963608235994339660618041797803834254960546420511589504575454526147549243730176036879288340150982583272041911686808945032116544408055532334108652676055029535604506648266739880544350879016869638046847595636224979091975360815728015576334363143582809396601264698748488281096065623664333294236610430269590741700924381202253069074512957044180591857517982272396713882957096621023563620630056525174544880346837985098586223806428413027858317029080708133078862710068710679539049194141670700040310148102720203733624063792568067498018961283888849357304693405700120312895620669201749506355818758837707688591019322426931391560984949976432945092104678533167580188221807963604014952501880358152048491690183611524793951602265226811989196527557070313835838831549642596076422126406885020866251307303276531)
    (y := 165204111324459914670017688127541524822019706824036916280263953446063182018943672213724992501760399110786944760651496543771608445684877253671358893933348473359830748735687954184267376874997041061192591125849534052979055445026966852301295722723907443718538970282702640719948046918358994813955721123396957833300775352333668222414548354062897696349256429979003973890314048377814392717946814997201107960827832049866972631288458810843688110870316050084418165085725231729480726985950535064773166768814815902779390886421459050545476982380368374573175955057531689646725662825277950048179722305676035569613182630862054842248598734429696412045862576204113762092103977378967015076318377122542300397129089767543355374282072333449488380370393330390052223355328917118097531672052946346173184883338723155342249693989533582928902819809910401543745455774026174353844057456860119451316411163537816549871834052186118084219068040628024584633515428925473028958996953821726809526740447014655377229989546991766234891542061890781049889996445097868504432587468643159507552646457151346883842025679278243)
    (by decide +kernel) e512_70

theorem e512_72 : Nat.Prime 1768152123995770807791276492279343521926598274407780191490547680632633550392419523504184548780965052358620985441698192591292626660149960521068092200192490533265939218232054874585766441354174052693560731975498517894326698828304845860028768930482034878079529391155277853368760913801578086580162719269811823374560570547335392961679547973255261763708632310856764151829807690606661688995578761414451713622462391957378300678317050637921277178631807239721687698581298968880953567471203956011446538838314170039026656274122392635141994187198298275168357762395860738736522579188588648879206449515970235047993620602333555792652444996537965706391827108046907324597529574591179456718146485052853096853159147094418309693622410521974669513744068859881903481178515382138064511277944050252057899401068338572411072033516704667258117573995381249609798313094224270147875214077258224473199388055118715904573515808274971132487752671106566895614568217328777940091674362072148729215832530971808425108916412977305047988709967675168455731293595800924914938283357776386978749193047542572943752208431157308240183420335537 :=
  prime_of_ecCheck (a := 206252243563429968810623156299633220443528413621341713530879037322792788083734320417785435226042931275169236687756536869549473591638439351321099013195362625123583841466725348068606903555606559470728620407117185951153623885717098458437621888622065908557176011525257764580978919845741670530270310705469649466069006224640363304586805804418213470828137779685455419450465422673102543946167163420967511829528878792988242331296495225745614574237005460044576982858413657009007864809623245955365737137975585857751582750089943189033075118216660665043056021673317334724260744838848678330628680866870727884312603588768877606119002488119988861346993709105409223544604200761916902466393034955887210226589343901650982055337931279224878019045262542794535851653850104517167839452338405658473839755313570665785270337149790406025818926235922107919005216323974313996998337122088607245617500612561348141790209402453799346425646629773026797466482966430453641857929530572802692344133239871849516625340119798003625883285372246107615855582521333122935125724417652599754613203218878265826870583272943806758152741756573)
    (x := 783120890494464461774442496123220289584008170087869598363684348720386463871345061281660462389465044726985764505397452628954367398802833402423861551622802587113002018657116471536156410377723018465826029947462679386974834074842969207844052538994190426468275278226475737687582027616320970744885870214047363468374934480442741381593855785141523530475861487379509726708205951866615319279406418063829882804632557815700461909511972682819908165203381760471223311326608525672573954457608570906799453878500430610799811084856761441068992969380217702648947012346822337673863619250664414157528205184582781057063993680458945644735243059525240264048338192011689339101858657349754724695731037017493046772180726623569885653686106662401974561494009922753023689023103375272634824557565899110793657909437619766537534938554970965873358949776150402048192654703260921924705142146820549901987412117146093699199059510914428450260133517806334479961225182534147258937820401796297224758949973840035467266556573725283908440920429665485475430593069967261756406410771132902888372866558892787798107517546338430443115612166882)
    (y := 1333977174022515386147334157375559610548662769950389476628051982290636945501774564997073942303739351062932801731949624904780984318526671205494924516136166086095956383686731719826822547702930849382248587593071754496223035196785013647358252192132022269383591975137842940182067248888171212968534917540243418356830665045730929325693649661682518665886151942195177616468754802636745732373016011556110494471004936809467664968768578074918938623050493139974729259009091557771428411474591425321133689452114050108603438689585770178730587593572794851573903949241346876538762474119659151813357392129667912740848984062229736564979174520291239121649100426370004591468649023965095956965432084622858956900062769288023401527044712955345459760611921458287607437022300886604232607915307996080155941479757194657476762677730274938589514606805973359544581373521367624274474348632984909027997438633715009617087444029344037803345752644407341394885602225389272354705947402583396933111876325847238235529039033625518323058921729425826833718317661809519947784878026491179799004711875811741695458119514006065658074517133030)
    (by decide +kernel) e512_71

theorem e512_73 : Nat.Prime 70982895438378653374945240708351941696100691266903439053344957628112399499903491167619062384192594134641591317627506879510708727582987179996755759758440615586534422296698545815671246896992901729700203580128164185581512812669283525115309006472667966405533378584134720694131640358906325207391731323643818854709722331796703581404404069749209119898805671872538319653613641841502821175947646981617603988057091345787928567615644341426101499009035790989922963365092436358785805462288491033337346185200421882540004627516533043794860571531511323418436699490514146227850851048319515566235159105652577313463220251061445833522267265138305675102788594033237391310078757041789688690263645485251402225291735149843185816541072016636880292102440459113617495234317884122593861934361540271780723335617082979782389371646414260596327521867935109245069184662015787034070090077057733668022356740408033101781923345808439666382314877977361427542973174183061984709512252735410290962830295851171908689064479069389260817285341595220931524218707168102740498071225882689746182996966625703282811533615713674308749805693408614298014899955060039 :=
  prime_of_ecCheck (a := 35872098289161876896622909465978785793359099299573333692414407348736842429001326353115138972468157249000782563372961095871807206450606017205922280735511479068012641938605987889519111081291064497667297456614522672512904440994183479848107034834048595558749484133355819656149365723766193287751424978124363095965803362170007802620365600364971745081399767701055470272771912857574630559398755859762257006462086947728406264729393436092223534885647209460708842578213988014991625122503146764954448717939586807519495445541808952529682301306518934462168036155063645447666285599701662974196330718426243325964235484785490782564377398828964102699677481136495216459679903183512966303852967557389341481340429487418789716818480966657585973909258072231631442094365036078522985135643288493979719908233131056205387081840761635823507449725063912122676809795050843079697833086322109315775184560265323585171238136280890243499262253272718286463110024044223741714799796896188585030432799458797538401668702972144525095436060522211161120876260645451272959375908143168409424657040448726327971354483486228075028970488984102160194067544075748)
    (x := 35395993072624518238245186190436198360726185671078846261075082190543692206111132893240257042594384303317147227500432661581968945487195564643151278959340767657706506706269408300075452066768434292803882218766807056855794207425563604641492699763818425908037853135585401654592252609168590695686427154075457680581311720585996425107170176121173652702647781593546998122083011002437220710002331151318562340646519286199394426447367655328973771535964850109093289272940503091776096483704574504746868908750550491439255088032096058662395546797199302298491134725075289654117954430657636824167835401807152143761053111197036345243688903439207547124773786839520173459370681478176281485862756952551228811295068191602581619545710344736189921936121180429231632303542975992478572439441867937533929311318057949335986835848886958879676465631282511315890609873277748547304861121627882182023227115173815811087227154542706450393348214947193670416310452995599966635112990336052268055720890638154238202305772032626782902984246122331492153137855176669322226170945094187959669541835032239363023179787219423054299840067581543329879200568428069)
    (y := 49295456541064021215205427029629074176966535054959781336222494984202199440681893591467616653944045177539918448252902804258663682678781276669900716168084290770892005877565360005520854786769743653747621964281904783814320073562843194873898343062293187082540224107853859267489568265650857822718184571567084780104246147740904625125702659540405142576225702248205790191510035162969583174068525094222257124346929336249208047439093019255418350097124554354707624163065188042206229172363454710487832486982921870276230994396555042635639806140790139667878291713502847415270995102846821495254319835050842481802421271370936623325647688791597273434731996695082992618789642605813683753896141328063463651463251729306385925506750601727121430478790683227761055526336608771000557428967929885274241814350014651730427406839657808386274071330474882027186681047823264575172371239368385382574588263755798412250776125514886935445367480278979236823743133752141037277178885500342142163121287543597646113344317668923699499324011249643409415222226183918112318557899006659744240772079069638392864206144259841339884881147677051640246198910717247)
    (by decide +kernel) e512_72

theorem e512_74 : Nat.Prime 321940366876530600750542641204064730892763625616154939302640134903829175885430287665054223157259679764278090323812122861773157048438445367336805865177056108130565757087473573399327576136423014050593004130342404049794270427400279333953579847732552545585506039366713996858289066108766717350417731316058889238057176085860004412130744099801026991772716767773710137409457142481029751341948218769835304654089367743532701652992320747341792009101517504746319963115695601777564104385212808696024333478513846233072419547934645024942013507200594472956676586818045251707183460937533884855883285144593298364485265762739308245252227502970837756954413803156042772188578494869647114382485420147892945897057859209953804946759068841784544112870724939287082084432826806749427335283819681659134428176512780803420872047465268144346363534965030977350378812221749936027733577331971838028941768553402650509938990941934624364615308284555781280209759370521584040584617292851468621825562570237235294474423693016411505825083710343649838903249017237174315386142392800404240909608051362590210118958896794950630119458507375723598144368628426080299223 :=
  prime_of_ecCheck (a := 3962065297391517542486965982779561963904695905083620710207616396363157850749447449707802867790373510525488815845752479696856738758439214056329960880708120736801946707661597857441869280143021920179325854044506255017380290397134669564507240500138672027194489814467462306060549716219825273668783182914144580114124550361534464558094837758831969025970489010503469817032583927852574791730244055794196997950065099389437328032626728262287602653214082584640550335390146480782242770951749093249904599213887221184999252218080473986399748300959206237898462255290588719778377329336439111633835167816459270178962107963488531824553493566483527660343652651332404288455841658689293356187086363888662607442673053390014426640244009699837717302222689874422836514113451835006668527205774840429711713022216451237895887708731669249081506911170871205096063603420791557832635179553560869218234152701204577470957274750655317472086677368841848037880611857187291098358131207184170729611441020688159987666855159251255111483133460824738668974352869280575367308788253266059361214924225119395197643772469615379023836812025822434756469395393682109688)
    (x := 114392106223277411570309266579592089559120456876621280586846754034311952354373099365218263203382052327085008658564074944610577628770402799797256954961126513173433206368051983978281734537384563317525659102898234733273211089997529488638347198856493496338548810001143136854491965485818046168134088528229914412293098988789958796665486613783655652459896931952338639705326868940764922229252150876398404553739476256534166577524279370677716647523888914256902490885178155846926035523851226040333813685608012751370222582822968439629600891984522538692756626332279443148423865951539147486268635063532916816495517151512987723151888674799849780763389078580571181754529653401712002955894080242786278042713898197714492565378597683165455963758973499123784144848359163570145998575579108385296402205715619119011284181957030889335262026797098293787982298646695294177276491465479834478206767736192717527376788943517112752823890693342735098674668075217714530712457413591619028917252047922620189734202025373921635330305076120725943548485024293786701134944116145348870826925267379097273877093041856256438871489406368248952693163059317218719588)
    (y := 32978134629165368576848981622674724027432806236729948277975373633702288618760618945996307069375440060151383628871282653561930909013257979450622156575966674008996040961793632016934707677137326323489649555415540477858180647098378568210340810031599734047712670353977642052879468383688567533330763084768068021377590662729079925726511508998414937468056856298299123888216700246191784088576144090579338526204493751530019508149632111640832923714646615863213326675436425556603583723962857051018754439372193765284085939052221240562096165179756196741097598197413745125952512124094415869897692223108309218530025792412962250387723081114035591238103403942996409635508891985291376284911469788093255730403956429663454752348327000902553600780691053686462630126912050869007906102477781281781393028381303699315369460560674929260211899575762096751420175968272087863610121153065856407046463177987076856265429830057499863893080169115761781244612930363124667793300266357777563330544489568026767408526136049258312500377143855298493668398895833036425206340840427143112081790795954257885658068517260020275899106347409913467953600339608363272229)
    (by decide +kernel) e512_73

theorem e512_75 : Nat.Prime 1502451420072727798170680320980789517089131969090115570313791142944363055751775512786698009123178892386248020984694299933703560307660628059262240578766668799790965625204663413338940819926043835576838675329103056722166621875617684632218314007233068091145853582199060945639482631959172586529906456334554418015519967667550906377359322638496341994835989614207209769783983087494445887695462983471503254141788678883173240858876710666636127488149039292858206653496131289359274324663426515121389984871503423975205953588816711622757387504912180252800088201690317403097007200233209850633454713494700023754615903431639265332356523736728490162647526683596773500528922180380234834538110767659939813492591283830885445200442220094304982016022485302333798200408578696872375057189707627785139308701601268781766422941345422217827598861207359901012715977905022840621978347987685722608653824139083348558399150201969144000435245909750942431623416833514655147528924840383188525253698438460270303330515652152967468907165446674582564957046994117696384891144155702273231486947789064165112022965073202059657866639876367331368775225019954637546418816316861271901467 :=
  prime_of_ecCheck (a := 1316018754740379155319970949731817674683903785314456565229154379744838555789069028925747807711740122021365113421211585817498300760396736945822100957278888383192468939016655679869159217278732098617965973453731253461605579368687016525405639955803016339736668593784763061785917059722786697118281683306205139789538786175439163076440635899230732299250666080722768241086353834720662170575166833595658378746655928729275214042653634259997764898039463445855054762791692153130922136791183355568669309096400061858318305833304930220687030030922902813357602468930290020977090955365483338200562455702179294258013936905126712848456382941489998758117257389976517779130474939478175498590232970841532633783062129218822959775530226711252808598519168903933997925974521532784537291085506997809125037831453488472401354610640127952182557807182354659623258350425199205651557855728847667638037903619633141429447421086625694979601538974525255195944239178654172890694588202685011290852421650047996152659341642434372995263949880355426936173910548413904877671972664879918785339894600252580595503376150915207764569430330383416127276145470353796536800148112588577219200)
    (x := 1196506708683842533517780516703176737494719508390267559948930139566763458371114433505821447873749222236809094339814272452986275417631158455485910579904173673873771704616946463962712440331667710810388391111982480597938404607206127029958242482670962184874253476331408008104359609967784664012343282520864788759955335568709036765564467541358442600262745999265559758769817056430332765222457298917942889036556044357542947196595118673020530848188477537783463710903631257661109384669734957550115765452392712065973616661538817631496904301663095595948713622619580625881169097835294366437469226611843861934315602469112969246134135689308378857400883204543789084640705704151891052553862653284640415370374498989907514496758825063032957913508662726481391659785223994482080411589866642976631684227251342070760844384312752982550070302692053295168343793500175198116421125611028980511897853258471535541673615340463972265896945205552497445161641424509601498699774567894038081049152572610898476203741403467940518194692548495206638281113624431696941204052298689688303091331705212647227682445486804569024198780998936131072889889445645596969914149704550599069098)
    (y := 3764123138757037739444404239520538260946490325599296039288273080855853782075316667752335304522516279788444168787655701609872721426136216667457861528208337423599530894530434362956234348171049630708688897182058376022634444035820699089222349780629840900881380844671182201770720966932975446166611515498441062331868358457726355643337078087534832158282702809412287381154748914854914497409325659956552925125805846887869143254159340842882192482456173958998260952400056066178704597383772318219692806608677075075571945583555008897233749166601300035185189617253358215388189139014257025765793118949943391780342596853345673788627577824321551284386512516934078503213074670124766093015371897363935570013143725850467431555637652134441628092135554614422546363494535186303664524328567988104276060045001631896317762149145166810655444013242637952198061517839472341672316303057444496743731870525261615794449265863532728818272552500395767381842403951134236145622260656142769440365898551079392588959085895200993197802462487573520684604596661152986323018135385447885194016289941677039859682707074562548873480548224082997009294404879365522366951633095740799237)
    (by decide +kernel) e512_74

theorem e512_76 : Nat.Prime 1751072989891145936174170081734176535687186493628796062504619336825514016716978512557919477494203693082200375743880371364154105992577591030618750778659881171141232786064133682679794224871552910870729663590850109400927300003883531778202547078680954503224257242822057222880949241584569641321922255793515884117047955656305271623566677799279172042602197237166499356255633487027079545815156003230663619733810841374188149875468770026467928614712792085206388237619953625156946114604744276333276924023111005470799550302882478714185531220858871965166618422665857924227211318577195182916670176312451705165415701282496871736906531456202028548354483243088519693991303208521784203508380201768402326785331394973973982965371935177787275401360413195082381573539917703018910999036752096719195856983211001101716276130974168497744906307677708819304897598868731328660443617002951631071549211030630670320948065791171537312855755814520139647462020288617011105008121175320312142405379167487354940057471451848902951638554745974774352774045516889414526021248782340798900404653226206873069129687977593735875616300628473743390934914443527306564698773982141056061039126789363 :=
  prime_of_ecCheck (a := 897927003127811379680272676924098418259874514034273392345106553463081270670639396526162825675498515284015487434757314086431444306147300498848260414456559585332250619278615928883133462714312138896227976247554860217788057683346832872142413449409630644775007859381645874895108370841403353606408061341267395572472558749422561009632262528466920834799781887848403091715815162559939812659090818977455307485959982473892617852550453154741691629182250092904235868451561523407593508776443636415195484316778710671678703502466876415291064198261932093746200309869541401912395651926336850676390703327287716772027724039557229456706720659528152413294852274847574842038690473604125905793329773444982508934139162346183810506562492690500887633710883892434180936660330498468098059617805043541320301363122559647021830576947635115837448258863664090089345421525733716748868024694946970303539899697869343725060867487088277749142240721399170802742152507694380794577068059263197665184422224324451058370675796147704657354214946630671612143014394330579294620302253268579926633405595481423105260819281641229420173896855149308023941981409718770921955870462685458223489645568880)
    (x := 1221109700955203916142656418204110199045879138780113720311278141432426857339753293522973013248626855134708340968485211399248046031106994610240972107930465388191522986896173822079720225185556984769318536343656328560141535079775265717647734962569426139846849997429075405218542035290314833316349056548477643707231373627877365145915980584455967872213874776567323270399772040086092880880625301104598480281201791839892576736552996234262732433730492762817454705486550920584130805318305480910189167576501797111496747505899384128468586719736302112180395657069757102441704274339513153173104531497494745515069318043384739287809041818891089694669049622193642313871760673820987152698131620841196603547587245170628405207471001665673532849556405458907073334838962286915241411566705592059434016155150878706047450692794805380367673639935768304172090304310267102943307440568713008171372138571393437458061456637077063216422867419240367044551184594963512220025973621080043113539223045175742406043274574310688434191184700367053313373008768865270330183797699804872536633030107215644185249247639598792304369009918240415789396826640566512033596196302340290524089048642691)
    (y := 616245805308461917669040341818814552957413593929221665718246215220300081498565713820672938516280202605403827651681962374391558102569738986012862761796437523290914845647482110810526225811005286178187893202126785121499964381565982858187972058095288668745276199043504782056894479694664387824939523225734374704140352203204090763934869347041924830777282362083978035663913752360697819886110486987448644080517104373380296271485719486346534668678108397562633778442547317196475052306797545986946289897822221134641393325458668498536397556556544893868002594261497060757601098316670287442827993341211578744928287185896646405603741656620119515101159783444711917475452785396883587572861823332073619413776981588282039429745780645289649564421229562247800166799114136377486256782959541193254533513979130545813247846130897326219782699010743200473457842609929011923683240294507668961325652625542374714049211350639403690491959459863739752486070833780333700736154303776917805993844116035545576647271117785317384455603926559615630512610046556417062134907090896731852793516472959575516922490360748357520086350099589322288577001079915012578151351253233391702179823432377)
    (by decide +kernel) e512_75

theorem e512_77 : Nat.Prime 23170246774497951313135015504521299779928025247240896815600603131564194468349565201904451233537330347258359801740933502992833071791668978934635663617830574437437505532057944744845740689305475099361753230330630292898079649385186101099909343935740539456917963509823771177635072676154464889630834138859529955895509650724407194012565776929340016908316789297837251317462038701644048236559802047216083368287238148551058311072190332225314961658439232544107176127247067885319745752761963415325096471429538978735109651458764279060385148741156247603156944783532058749423027029832393308770821179430424225796796763943276133902023361647345842086195242324583883217986615706791323784617368591184773752522805608299221312518500482025612513801800323910520390883064113910468721005560781231967372421021858834649845566924126942023460900288892907312305658533143216887028725292176635882255517786293268079075566809511236511453359506608076986430015093802244499525772097452745320552884760245148945688532557393189906116822931969802285089103735151344653140120325024896405257748513069580564899806150393907381819789628256964117241709832540111957521122169431508800746024216785901550128807 :=
  prime_of_ecCheck (a := 21591016139373267339250966282991020267969606780731344532564998192446324877586693589558209044534848675229957805480209706069659882859284162915084980073545751615485320065317553892080368408457907668730998363199902317892456269090029143130762444489308942420754685508544678739966603352639907726059695641237487156635641294310737935845588850835740723596375281903204067574804703789807952609304142790443694550287633391028961782213404567163393311520274447338667665682925034249295028491078113956074849330058733913834246850163825097814319545154713629679737626801358920130656253444825797515707320819649548339913322236300213264609207385531105526894180015269504545991647381314661702025151727644165506838942250861773373239514553847976643262053489547826144317698373958085040972740467536493579132600964518162953891181804417816200191315325152384425015541917325638255033115326866905279047136839574978277780870975420944983172376953856641053097423305171268023904635581488608440385211977154476560127860639542730854398266100460561180182782152555546918450699119780577438078038822462700169515406339633158906975839169381431360655294427441209995260963981514726258461293591714734767068961)
    (x := 12443557920913301371272974161005623155903251839778152093882647857508870917636547086050631276224841874139964233111001214819692165023431980508365223873821981592033192484645290350934158705556741605468576706239770210045592225626189357401978583521902169909688867554924858054128355168001442046776952888898227479817384385488639268897362913844997221217279100764679118849352014797193465355189657909491813011504192105912875050472289245262309950380539045648520817756251767242408476148833502518438058541582052563690481006630887859293418418760351574361443517174284994822279479762549271528740020650485838048952158372324897161821163395052985724276079029125399085170033503452177031005308608536315606576459935622073941042465726761459320711509858429305145167988239162801455285866438402055231685947136783492731570457355505002755690806470554459048422584509087226588677755182783202783279587411032949771399942898746843306116908094410358330805427746624346412722748900813628777752129243074659614556804014055842008769415074841569917476535644639932533265439035523927356767384669053200239631001432528632521150413563016021270436581579406269437148358988230036383767658380175500169088379)
    (y := 18403417034775682523534288552764151872373864550606397251052761797646988265986286538998736598352444597125664545624323651516804345162812580574877370048702389816664391600351282361471755763300594331686002951178309576892273397413962976275936618572113803028767060992896156696552255969395130033018594292581559925376929244677233806991778226062494401341522131450731606120989745733202724191010538130726258917297886191936961098856676380357251817147951780311100945310096826958026112791080209997823813332745761641829197767303554250649124185890054447558808037912052484352439773823626905940935739816917419480376491013424322940164215901195239155223169340654423121991241849992267265630953552450285745178442276944094630742670071523850791484067668086588645216499341060309420180057427582838032542641008025434529959662038933861932658872752127783203773527380264822937814688625644412837186862144640706907164773456011596371778709226287642093740693381064212389390965429699123140130656877453151628260591381657961319498330550196287055502247293568485689501914768290671375749432646629122144758028786310597768805294006717931424239051540233313089902008734204418219018171346140920879762126)
    (by decide +kernel) e512_76

theorem e512_78 : Nat.Prime 230729317380450599176198484394023103208523275412024850489750805984116248515824970280564525383564735597998746905736215822802631728901439692231101938306356860248002680088233013769173885784103921039444338667632416456679077148577683194752897246912104291911989080630825113386890053709146161370943846354763199300807485101913646837977130006662367888373018587827863348619286981390971432339662508786177758181404317483271438661656871328299686388194737877674219259875126302002014028206003631689807310662495349150244221909226374690883315311164433913632236856154412241026754503163070972568739852186255016998339671589035259454101214114166484136218163001185725007725019619902701192574542794371725085691176775858181835074407581531624227308347149911362215170230684716632177545803172549404404139279451717521784803539350316466971565638116391401621673915961760168656199602393222726554951095811565179318210699812585785389393629613501619486931079726809390482713592797337874094685748720021092573074402828330861943877836542969673465467015145589520804656311118066947503491620639168638054756649650726519576256743421842651625983015759875395496564451588274390859325920993604416601812910539 :=
  prime_of_ecCheck (a := 34839143867187399774962098179436851013230686433087167206173804363527939229963648129053954637967468023206915574481017447824159197210108684726098862478220627306557173389314294935914309587506236974395898576402922953800538969315081834312402027646393632235057029794909358669476829790515586638805415666923534811348803973701538070397633730887133594949916288131918918008843817155143538381316275704209475471614414948880385304017721492156259871977956285183785993478238126596773457618211531934628928570437424149716543169427456766813184131358718198325936805032990982356389320760737927345977646877108953147886211185289254538048549530594773283212394405791196515738504771400870819697404349473256832886031378545514900648502253224562108725635146043135536642596216342231602644779893095798288312228723874439514622279306375630630043562229122096214092956417305444760478503127255152801951487390696996155935568851425051737959568277815386596976550099308235046312189967598565427636874942959543636742550089939145306968665040696974843471627341404028712758733083904543868881188859973563197087728349245369497825804278011605053051606928134598886057787372398013102166106292756303442709860652)
    (x := 64979762144279762854038480830738535513029040634885278524385517188005129113332914878097791253658825193313239670260867130980332856006844274179143881219815471668369814034756187655678529455444357858357377828135839544717897828866248574039374705274881398655839737379229666774632160533567485628653168812201305281924310757933874593299654323443708252616432466567719297816019869187388525128549283479129019413512438171008132223595783626319821966536166650581814951680461046411836228511773256397923054840161433213420083032075418721620607869212805452082014018203380746434474092662239991373738515749351107178264633826002591567623360810941551262530645158289526939594806091680069268213973081690189952341152585033122897615939313539653416069733138601974208124384006067180763280096825040086559102214120231765971814294555170488210991483156653767542402562330388611513005047791817596918876563903986101072786117454637311281309947767229927821260896895489259041855926540996734160499104035884466719657648124577362527716774879287399442829990112506446082102260507818646144879593952176292450707977869748876088213498535569822972524981031838073480457279400288867962679670737707849032175173502)
    (y := 12451705130626944313207036231464461914498396331222413838999764821628228258860563219171351876990062606370092997210921266154119643828675410779901102514739160218011656060580862682713229429682440845905449826095532478282892507510170552469235976229482775888037642869450332010323426647536557382427362831077234516850479592091513749522552804786561044457377379051352707219135391671587309739704263689566685171341301133868472328496738904354597847616741797963601154613198086925993877486889213071812451267885109892807255203738037326729386588928548691659300477468779118442525838372708256138402702536310667554343925299132067062757690103391235716182529019065471608385094722521568857730337938038871300564298306740730378906907183503019006689748754959952140290573439216721084533097230928200723421231732755407107966205323653177208955624141057914861215276342893757215084023628689618732540363910062172358988813346530229944985191465262524936468530000448664403945176441017931096019016095986386835162574267274730867175793010326920838354154999153290954769231748023829077861318592681255896379382441937441810910291135715116750650312925711955492360267663021141142694025485920229281322370521)
    (by decide +kernel) e512_77

theorem e512_79 : Nat.Prime 30344342833878889978184808526682183519816264261360726384129163445272097340369916851987309114911597117170246904656931329306994721563894535556953341953584426144513481003742481063134800794752533272473120504185773710930353477992842436590139513706446683200821661305969734839660447073528317053179587633268193233973284427475091810352483293159471865208854248147965529140383444545034088627098315617810774418964547491224515082213013225577597446965615279395933949344479902787351394846846178892879140137757619607702594640333679910862884956791652553314070922964835891864046758200907050899314270401368604356664215629279194631130644135140463417137754184359001153427972207066210599505295750271587816057573920815747455413208770529785500233356709244263368752376463768729106934385706421192470789624786082446817762172376998830622508518494440857501544271074045677882271019536652803374732177165037069754776395165713769072781664461641123722850941762972403514627707457551226047349356006866341810707663245099041943369240169905205697060573229085778724773645476440643722773333066592435490468976088460588536452283279330701155507348061036855633708180987061363431865199795313503465653881848201714043846971431881 :=
  prime_of_ecCheck (a := 21774037671751219681012203341615110439569504145697978222770989323023967474254711110130503194917366222161543845316084454918366321497113936920920405984834046808640982506740935233153579866358964993041287050727340152186073763223685923591537886019371886480773168906254986994605711054918655083625872835202913120415566156881181989682351071594258818849816882294262610451205296615383298280534837805736460501326945107575521175217485815392585987457205417407148224095424529184933656480944164525295689026248016975718215772519393043567488616404495926862187542381791073282809834012681558614669760075376888766135241037524219995189149302534393922399536284714820061251933072452645334488705160211371638328532311143338459171923482718991431639200061009944146304158498326594425175676897492987360780656062774392279910949885382273449180191087852811326130576977498100226773237865674072646166209996267652999066756164132980839006740626623106537938027767488938604863498884509394684765845792233618594623002621656983445005583431888597804570177109476384869502380978448100662380653398701003326135689101004312603389347122248068787427891546979104943928817875415515646503094870211880784019022557596983969004326608115)
    (x := 4960585411895904377404864309190299290594122389902042212205753039324339162221630372840477820774362035782622737976635590791107883730253413167910963133136722901280828653915677361439493451826103628545611374831829664589562059078317423572904663379507974815479390070600270692869436144386074850211175971781598717530326263428284281036798508501047905056843228862432562190164724954062687639187547607232539568414697679416149839151140790724862935044496077744724946693230716551622239185580420331332897342564985860337516701200535571570136671512379638917050642274586141550819030257133259136086450393126875704240157390316417345617870874884473818864717999488429184101252226737623284190290761341975966454831566527688072217559118402592329248498516517912115768258705605052836290580233072258731386789299320992827495244621613355558898791490647676320762413866900038079765406976257062448793193157722684024563115587752907251464700488078279304519169755646919167413367896086717853387157060202751613059809029185737430633971872060699218607033590140379746860100807527893914301516328956246626243057388515098369467439785104853752833012420736160530315634190287443865527798779981147001020618577400743875178082780146)
    (y := 28261560502716612671021788967390006175674204380504555331726506006219609023958842397162424904345122427906314406889578557079870233231759580719634631785098175348271038328854917042340546206335860913863353075266402147012952577797730878795067740639389298782705700107551461295232695763108504466674978159117295623792437127708451290489136245981889368997103976877343268839414772229513296566703425734681997428770429780898119754130756991615396654701048305741054646914908248439684417452406460816346901714099065885651910383153665663203129125125012595524679016651990284344685235381665621257967717831176296999171848413981532737556581972289315215656475520758581506201363725281893072879253064851915961595441426858248561109156274539698213710826955572448291906248306735398114209990690130203893540997319973954310758968790786280134945729356611120279689530866897949777366763949775653925164888254518290815429528490125633840152316388273487150158324797725862304990824035368193181994469780707903033526564531242576075538933419155335787616435846579335340999264209969481386167278098949875306571968633923368082698963891454879918667325940402583977821625002228850321402641622067518871259467177005363614190974213220)
    (by decide +kernel) e512_78

theorem e512_80 : Nat.Prime 9651276513389011776824927660694723884756525508444032027313689323529083109844734432313996809845474419936807463180731596923276808089093040837966703621567948591650770048270306473561060643805262640266891687305046135481837975726843056394995738834764883347237622010050964192650435233278804203019297206005829659466546528545312151271999371453166143544533923638842327761319567209865775667436911090644793874594475826006205324703986266049414596641138173107478038169372086980268170168796425941127821542655379072126744592060741745440332917148297598175279565275100699364080252316355208555207465701840312992895888704027562569706373101663123806304817105819101828924622627705349844924802820241326397934632003413566577575401557831322205234301641739669128449616138023652676123116975448304276721659366681354917217898843372566402118603041826603374139887468635045847242850301510248181862231705580131745052742884283113090196806061720303625926100481471061233937625861401228896896535996389596168135065445047159607767356069562348439389195559831480361589932906674222162558350296516294375787898617792334342421133045343978676041673231858575717685690509491129302366374164969207163369799611077107784327588942369524854944397661469 :=
  prime_of_ecCheck (a := 4484647649247401589130121480964084821069377705979687008127995273961272653773387804134461434389999519601821694611712146816968652220025151132355435172266749352071630436506055037370545526553362922704026327835362740642723054565434374261128176597806022368012436452546882381957466595654646174830882397105106565511469917684885407873159990647596368279357720852994632452338741242895277421624883942957505300811228855404657095380565709249380438733269444496589260758628469012795861432854579576537254257108418488009512682466273237343921836487570506782530275443901684582783214954379727894512159154505965468755384859196635565508358710751628925582438071382955208972311468560775587394708463589828404745110765495396929474257298506464161940476094452505785638255469005731451873012116081008270471423278152449264345465096996570020554352139157799333982655121823311770761874868824218659782770964689377052463732915984188206300199767173288298186170917175815109402550587362320528537209585917933359773081324497489307982493934762727267237972932347420703074522207264187425932336668297781640197460558613932071916425917886024425850674852280489353159975658585826766572424657602058535951485783622657088426449631087939381346910800682)
    (x := 53697247652977123054076306868717669521336420245704762109440035511076614673984605514457200167660086516805760877298433578793539934818424889845522538592257134806915440825515212030248027222732544217188883102049394890832610187488029100971648188666303086303231790803434538958119339820582070814888289611768183516616127006775784539011759596055189415596017939943203364530609276597006643980763716645541905174448415542894429484332733074286440659523698228135828499891526152408723836215088660452504471387938109971750210616443463805043833165473263827221050637116402814604527136481092978882090417102890143821395380909918270004206394175425978221505648369402802801892879807446282486159189672591391847806773366167686353898057641649620785685745613947165156322530155228510599340970841857673691253542794709043041691234195810686199125283851639529535644846663899690631089088044899180719851769555266035734347318275166093014427015558395460268771558022112067344997180799110635131114365388461259104482129592047659596363726529743848732422796170408202939096296118474360784846653181284875076249605532825496988070636308690185204329814198005409070818798231982564059383048709275832717838244512543258559210021875312690052922153768)
    (y := 1061373235557056002797866590642944124861711139847435803416452800414832939806694520104343688961373579717411138186214229415421435721024136360944045679034689497589769626116915043791432904978880826617594827427735053983008825550576945583427344797241220086092026263099212293314362010363168437721994847085125036210607732027436784511911547500849705525802517023589416967299259629207617076757083678348285560650169452172918031787216235316023063153067891802060725039583804152209378356737461386876486244664724977675878302680439771957909259384542951132919726434479652559357254724274876395236105572987229872863360711552719221137175912321953250659956833243119925232311774940633218101707329863287599524533925634654946411807680456495079337489606438573146553229277636851311535433895574098097140698239359265584351547506259815700078365992464604250048213655689045158350443259326841869116962631988814627173533238305499159690888537227425574631811870543279858867996035768690928043916385224666517366319455896694359715685029655535153007531028119966745711381281334593660715367546086000231832422370920792558259739231878556420179674212205535551629507068678607480471393674299819575343524090677659800113250400767686227731104494498)
    (by decide +kernel) e512_79

theorem e512_81 : Nat.Prime 183374253754391223759673625553199753810373984660436608518960097147052579087049954213965939387064013978799341800433900341542259353692767775921367368809791023241364630917135822997660152232299990165070942058795876574154921538810018071504919037860532783597514818190968319660358269432297279857366646914110763529864384042360930874167988057610156727346144549138004227465071776987449737681301310722251083617295040694117901169375739054938877336181625289042082725218069652625095233207132092881428609310452202370408147249154093163366325425817654365330311740226913287917524794010748962548941848334965946865021884838644865768812959229297668536048756655813157696385868672275654558726678639584607193262508845747648677668505626340723124402934730071372668982299711265344565749094667672671992391154124511745268127761093964957445426966720344383992690002369673291418979463800855322897731991587220783030208524853106732605968726436232408006566759528644169138516700396789151854740020656123680291276267969838916530824524189638198733101723930493260850082093051616644662348864194178685755079004384255892017839241967654335356513446001630435592221215844740912887456658780250626584535113232970389398005411018381595820516504919997 :=
  prime_of_ecCheck (a := 105642162338368433367798473424866214755829740852617529618238850966858595452068641628521356026244850881227612570762776546148016630759414951404177670018813249429863495455813058924370081227852622499648120774528063364974157743531623196986653342262371484130061611275713981823473850636142144109528686346098791279791875621096377011072676097475543817075490707795255716561640588588296886388973705855062149737658439633992071081565611321078771218802634245026790506796977684601888685543012059533259005680187243265394580268096892680093746497890798832363957851254296946087100765194060681008183849634201739030155989221030415040611477254455354864231983139660928477075405143019564670629072803802532506880340205118263794021142600442596552752873151401005236466490249005137873974534320289851133096544344541605356758726052116196085156930659380815961549864407202696057387069598669562591440452181224531823059456932559128146553285970509159697755215289342384326117900066548933768212482472532509994858633394633734634660371193452798233383608273712472784851358170034010219172164076862780183874155345569621555477807899050523640768785468483933497965141134883704087152680212679311645610443442708817382561155106235956297700389671954)
    (x := 101944777832580931231346284847580794877278341079088867249305716850157560724688593945347870589952946068371771986042737975598083559149394248099305398905644998135335070876336275673257340540984428258060847001471509073505913285373088248802916570642176653307638309859398602650532532755558538401931546549505087670875133555817924238006893593235593706560086887261896873250865624199120136279100973798772039461570413516459075846001523026390418200124503634722083135686261503312574912989929366994200995302498467872615937922764896510336591448931858729224484774116253736745975649798931236073903507670103230135514082977633041596535990668117578214039886555083758941036971763933455625658893015436115671684553903498971093119490290914349998983590133414897038748144326473068822812519845376486656620731116351647969287198938963162064040843851454612981090370800505129309507146871286012286978425911981240490657849329850954015596366208106808100789863692395848322985138045965337247463601759433528938116517461123193670779977136054347711750347961197695860191182802080989708335550662544173981467010124274125563398086805661485637584657085852727318025115822606776503339199588450562711798563035128062005050871858996083604245787667154)
    (y := 26389965284452878990239089247907743443692566866632118612539188619393658231232685147141830493711049809747051375837180492255209961523444558082880099842652520549616287182629841108964176231984412765538127451434883852546650093641402199165793778281994626490377612865975782470441344541480398758128811748152761686583695250776512992565967970785641018862837797087254865701656268906093731816046783768983637279428449943000774763596542550080895798614806857760492784015260556890164541680819337080043934819626653515905938464920084152378669308982590510262157907112829015351254900310347745152045427852512271355442662839872430300075417845368970669809943794493057381083100197693782249636323865724005724905636680870165960513888082981195702889217509168184005749621293034108235468053223774691169320313794766079599408403451852302079328962039986886315421875794060789512048740088092435405301318701260188813054131294215754822671901348857967260187824985266517457409147021495114113909033106483606806755432629926149317359102625940750833255966233675478586565295897275977660531055276842355977038885694112284740014177065373941567276602106969747102598396017846859769418688659584255414781062734452671196788686475577646243418167093945)
    (by decide +kernel) e512_80

theorem e512_82 : Nat.Prime 433541915513121979183042687584937716184510390967220526955305644183572927744792864980217690929093760646409810992128010969807241252235436741588676184050259834354532497362240844380044365982815235876580976753548274862358710123317091144107028978386960701802909095433653156883969339264017949098594449954644631273564953624652573664151365834179218692235989993572585468515899984547148819319820214606292078810392762015956647962394063066062834906554175643286308587953953601242057354586444246780530497242955098421801323733172528428095160887668621978202495840890898149019355837492853281170798709173653803565059654096877491472965341895317538665385194748316441525856797645064981579599323634395323266539389924932216591973489723305754981678426656676632857494833849873805535512528027162473017790006378894811909107423289601894341904774123348378461943767242918212237812826518517431602235792132689716340358640185230731538615769516281558920843214833256201338921704505437364761406169412819645396903226475934351730252248525516192646638524660687768829170115291421855813234807876555676740293540682630935976248834453867205647205205587378097953304088682467437268894470484342276882503216961407464689450182547331887556463705151808119097952100671 :=
  prime_of_ecCheck (a := 264962355112138696400408747382847904901158988489208699643699151798133217948727580050334688824411559805351326176306523780877194945184138128546053514524626090594436255672432590304283745882826198960715518885156121655644840791862143536224184624986939968014743605626250400297979066493570478683989988019439692477330069476817496617634724948043290203313727732218086158556674889354702083167763491547564313402244008109114901282593212898326451228746298368877425350521399190942485430343944128282845975283523040571567835632614367937665118500522678573351635394702404290320985465102954998160581419828847071532853991756983302355302398034745915014655553794294296053200895097061288195184117805805503888583619150260460854006865352473925847377611558692710753792792185216930737155604198188899193435994142656516664753363599115765629240858936675165935079185097651591660018049492309391755335891465838526028811936149273497065864744668690536030385102171072550409547003441173595227149405155819629857769091543313570756164880966374849792963809735088300088642570427007074814199721016039766662917451538435871464046569107961464059505069850644820856212417440477238810746062979423276758202747634646123001202631178796008805039459546462791080054967562)
    (x := 153367950347297060445757192077055937210286631080256251973935939934870514318304226219244991965486165553594523586814221727840614986134667161199984580373094851379147778427109412754989731845553849143789798229983282886898309779635060610356446168934529479156241627084083345180847032545851929737862930442528844389543711189303730152284674990237978761187313935564582755161708737105852703903137991816432349466008954108964541153105521961053416411316394927465501104824347349951114416488027205533655802250321728488174963164736548983674357350852569671744238502915246830953188437374659487673658125028666637284463662398493535824625365350075484530867584838629772742147733299427457063416442505283319232720242358736249607093132175904257380799431904173618759165903129308016375591720844212709033794203015211289985359436717843324556300404094505688477221780136098770893433920450612096099205548678062242373754409885543845359706331021989504639286863004808946322374474765404056502367858712223029448871726034052048766287007604802160524969218945989724145091998500951353816347081961131699781052993927733625375246017972852318465335541967011953451121414281698169588130396654555188644039990316498151486930756014426534921371034865598651853232352164)
    (y := 176425301359100993648460272576660410199556967246362320362240411688559093357235797683716383110582126032631518849402867345991565433541876251091397419583386070226025546616006408529042451417812094571102623838281478803477447921263196185809954191337424836824594313269795978841302844731082802937601410728085709042837480833632250613324598322568110770747344769604858735841473938604662151684772421701030003349424162863332756647541914736739364323403043641984683143295435038863919022918947343353258003719272726162997970911568397356697330868285906474213266876295725543507505690403087170895266261940306302289152616851328169549847413268367724453465898115799334912341941507180497495704666911768390459554512356739848834939746366874698172505497782851138107557662652659241462007268893656782042071338876087908805433025064203433022679285781521660299418386789691745523390348992479908473575311632543767971301758037254907970114721791242063177885963718945568420111880251241243599178494989727185033866620714877085661161825568625784692011736275950351080372841245818763012048559906790126286281871500721478432244934332896921903297540742609373311178932921194534517817717012666044543179246123370292367313411019163246350111111726477235510848461707)
    (by decide +kernel) e512_81

theorem prime_size_512 : Nat.Prime (2 ^ 4096 + 1761) :=
  prime_of_ecCheck (a := 870987741161343993419911264358394683501897503078058186064957397447640543725209581094717169005268475309629406789301439289779858579734481884934020251925735469939907540834370631336313818811306329846122717990115214788430575419400103440576810331418156872175007210168007506345258793765818879011975668806946830458458319402519803834065468391860402331201464948712395568266831253719297048379186096463146274182878533171228783618388068173850040940394394116205864012605489378484809242439109744850998520176213665636653522743699688937827973781882125699308360571177129494483919168896457865591483363660892894286060560438281582287891708620418859208025786742528036947120844386534283279156560365155486236781652123222473783238750008994661632806734817391704131510507900341943051873140590252147179611183291770686747111584282635761453231534866818266796969532123200181310903738495590275644397288978282225314967013291510099974312721118617752457278324412901935004786721043542999775724786249150662918575464316791679354448698243121465000904777423834897686739087760190335834037642475728298592858776479781761508113224509922688894285110623888931779308169610955819430342829009714795437962586400298859289069080551635474656804102660906481853392091838342549898392903051)
    (x := 876035496238396734720619963313006370583892101351918942558415619099944844820964053316334266523706078807859395473692527056142738735848868870620330749400621773221050366672060826780554659879330300382595921295524591881607502909174586699861225509572346991391992025140954232950561560653039003573950977551514955452386680792129215421056171287312337877225571873352375050490336690151996157972871129817659847712671839761342186720801522494530647771546432521982836691621043813483083646058521334963879806813181218424368745841729863938068242126328992948009808892822075788914292038885255097539985804824657306701520474296701676479456490522522990821176427725155316501612502692268078872627371689968117743520688270844574381124435500913326434670508742053250917717307728215319538269022148858229626117151541731236421823398529760143060204702207112963256688186669124495450680538051505511308038396091109756899507488634834785523967010219537616358018357920288483121181103073996597990889859008385504211872520511909061269856142379050865321382670119488032405534003205905481346230683081592565858808491765575922838744276097400778951544868591362811235257254213043750012395019339882022291439754625897391982841765434966129216954294228604021215989967244663807799444676767)
    (y := 413820918772598314316979671790056896998745711431752650927347113206172917769190916423096733416149943367821646148880552938658796854418688765272354166643266369361487474302276142123053631969592218377161021680137874103713113064451430339270755624337357443693423311787456873832908243173768802993983171220330956214758561341566426822296673638234096806653189371851552096953522689349727814959390561350589154569366562945660489802983539149198810458727620014439342528756883432623424598854100059909151439020109846554765656554008496301709481207324437892088860693450972689023612487621716392402446689675448641343340763357422897813086997190857963730338433568215809559105471833586498415591251695166071890901688280505042634917714433231302409136236831786670295847658735234569611924201112275125533324413067361371109618101119753100908113631235342535028691733868261006909652811976757243106849889851327329405987608733957504011156325773835014012055029433485665808732797002228033326165517947295814030838234672619048969459464177550912623372664360852392813873925464379795160589728976126664165197381322956185246607837663836938740952993193546599935712628901353828229145935538872282014713565898428269614302193759353076469463099511151214241171441137561886372657689521)
    (by decide +kernel) e512_82

end Aiootp.Primes
