import Verif.Lemmas.Ecpp
import Verif.Lemmas.Pocklington

/-
Generated: certificates for the prime that the permutations of 192 bytes use (aiootp/_constants/datasets.py:45-369) and for the primes that it rests on.
The arguments of `prime_of_ecCheck` are the coefficient of a curve, and the coordinates of a point and its order; those of `prime_of_check` are rows of a prime factor of the predecessor, its exponent and a base.
-/

-- one after the other, to save memory
set_option Elab.async false

namespace Aiootp.Primes

theorem e192_p353 : Nat.Prime 353 := prime_of_small (by decide +kernel)

theorem e192_p4943 : Nat.Prime 4943 :=
  prime_of_check (rows := [(353, 1, 2)]) (by decide +kernel)
    (List.forall_mem_cons.2 ⟨e192_p353, List.forall_mem_nil _⟩)

theorem e192_p101 : Nat.Prime 101 := prime_of_small (by decide +kernel)

theorem e192_p71890993 : Nat.Prime 71890993 :=
  prime_of_check (rows := [(4943, 1, 2), (101, 1, 2)]) (by decide +kernel)
    (List.forall_mem_cons.2 ⟨e192_p4943, List.forall_mem_cons.2 ⟨e192_p101, List.forall_mem_nil _⟩⟩)

theorem e192_p281033106631909 : Nat.Prime 281033106631909 :=
  prime_of_check (rows := [(71890993, 1, 2)]) (by decide +kernel)
    (List.forall_mem_cons.2 ⟨e192_p71890993, List.forall_mem_nil _⟩)

theorem e192_1 : Nat.Prime 12258769116781832890048273 :=
  prime_of_ecCheck (a := 0)
    (x := 11134813287083898437167460)
    (y := 5510533459175689795114236)
    (by decide +kernel) e192_p281033106631909

theorem e192_2 : Nat.Prime 22189650972846881883179192216476065897847 :=
  prime_of_ecCheck (a := 18166112021313411331594246957746472972125)
    (x := 15918463177125909667725854472511967965642)
    (y := 10592407031639690775287350444385895873179)
    (by decide +kernel) e192_1

theorem e192_3 : Nat.Prime 30113024950659100549715754856956682191731185307498583791611 :=
  prime_of_ecCheck (a := 28931138174175788313781538145313022245089436453496044370904)
    (x := 23391739215921653172661919184096941019203007671199035148020)
    (y := 26845761274777958640659039519931908258622779724800435690589)
    (by decide +kernel) e192_2

theorem e192_4 : Nat.Prime 1665585634648610717872616642839729767646850374059912793401955337675866987 :=
  prime_of_ecCheck (a := 875510016702875499137390836147445136270191444751040991809795361634383756)
    (x := 938163698765410733118657438477911136775127605010473915571214308354982251)
    (y := 524278372212519445928683550779862656528848466931854250259780033213580758)
    (by decide +kernel) e192_3

theorem e192_5 : Nat.Prime 2798937670708577415061885207706147320984063135503859157143785295149833453001718226765401891483 :=
  prime_of_ecCheck (a := 1296283875753925636654121245300300862611935428936790238466304327841629386147691032897958781461)
    (x := 2707898771686802452565462255385909629432979444219698782025097509002498245695441152702647054440)
    (y := 590913788004540845785685690995449339896471718956297261544242619087329302521884595256573343767)
    (by decide +kernel) e192_4

theorem e192_6 : Nat.Prime 71718092882859560147077619902524121565883219018792653236664176500347256300258272085006041931425359609321 :=
  prime_of_ecCheck (a := 39083787214391028459794487747558740753122812043401330210869852968904719771075955018443848099926371818864)
    (x := 18404163335168416525860609108429614151800984632623961690838927433162542639655261687340729499225906031440)
    (y := 39617321761514159060688748416681190077208425852063969129332736613019390666402972607486336946215495036424)
    (by decide +kernel) e192_5

theorem e192_7 : Nat.Prime 166216022309651359406023631043503705254786218653968631186534842432924989053095788695206966247078831056841217266233009009 :=
  prime_of_ecCheck (a := 137377797038569545636733605205403993763060426571666843259248559868727265429925668590363290858174707560955475294656623544)
    (x := 92802530772076494223147911981954821987781068801217407709579188374775465450181432157794732651720700692816537846281386201)
    (y := 99648745368200492088887005154761392164186048544739762382151087867303059622252805527927679026353707513261804512731028994)
    (by decide +kernel) e192_6

theorem e192_8 : Nat.Prime 3385907748431195279113763344431568394555223883387570585980640195369648475943796682940707773824886216547292343140565137105061683411478921 :=
  prime_of_ecCheck (a := 3038796924415096229814504585572569752361731102956947611805345731886618054677896674284524355844480459483317515918984844154946389534729839)
    (x := 1474069697058121312411859373769319731048210507372450975977428906397731870476528954969182384230534299083265568276887398161747158686418907)
    (y := 1984172277080569598882412020893415540858286290165627096455039138973243404102750655336183048276088194344983283777881609394015430982485163)
    (by decide +kernel) e192_7

theorem e192_9 : Nat.Prime 84472475300759467549087517271529003790655146124497094108789787564888726239808907997177417327818748059894004072589620217381169753609012255159501749 :=
  prime_of_ecCheck (a := 0)
    (x := 26772504141549760416317273263802617323206709431024009821666319879735515485108408429499272988138725202075282649922703041777381954906036368359726476)
    (y := 29821398853888033292580023931513251682540893955125205602133174568458305218993593900766063710075022012780148435655670298477681421452608385317769625)
    (by decide +kernel) e192_8

theorem e192_10 : Nat.Prime 7420513320467884166727273925921637157947106764571310648671151505310540186666448358093359961915535636762624337010033768852497865338637681417833371396892826393303 :=
  prime_of_ecCheck (a := 6798318385177317025762947226475409260327719418022405179225706919214784991002554471041169005812392971597313191924360192970681197801511718873336252195710605638212)
    (x := 2027817917753675793162525223554453353054128321106356291108842335840099228536221494598851890709272736124821272207615598055583327656735953924193438601264059102482)
    (y := 481704624245685753387107928768105100585377563587821937068539085809259298057081941068863645591877659553352971595695829066478682099238760311724534160047643259250)
    (by decide +kernel) e192_9

theorem e192_11 : Nat.Prime 3337324574440215296152743132158027374397867323645239948466979393704886787567790139769862523899241169267273292586957186624577976619480259525670403603348915404437553907601740445271523 :=
  prime_of_ecCheck (a := 589915920341972024285288594108846971916086495016547786990415788991986135955704883881223505078847173877394942600606189971258663450226029318583596640144699843614858380081036200549782)
    (x := 1056646320097561422715437236060424351858998640229396415647435567331164698716900149136010800415913096995323688087809985173916247427379663533017657426624501410500656773333460029614908)
    (y := 2053804474992272880431959310592888784978317051387853511552842069315260136634814588211876975926113062350774062371748905393470212328118314806893099388132503069120553433998595323678938)
    (by decide +kernel) e192_10

theorem e192_12 : Nat.Prime 6132384841570356685146470787243928615106571940126478764434016751350537151163785559576571070223338544814275655703833687828157542862660572868403218837017351135293751103690245115677110954883110463 :=
  prime_of_ecCheck (a := 4423076038429307030493311838308118138294691517720118102632141361204257641479155468674377978248965467824285344164451623668409299779510818030473941642574537517286031214227344261999465576744665922)
    (x := 1193448798456891599005037153092755512116619010807146696737454678017736675834085270558657914722664818672648930234841005046841042514096557609731765796384022339648186440844298116715140895203799142)
    (y := 1064606989866169063539050975061107366980703945576564979548562524758963607180729703718696807050160670032206524428986230627709418090630972489469529030170050945138777102708219456551880277859516977)
    (by decide +kernel) e192_11

theorem e192_13 : Nat.Prime 9061669230905382211846042220056573321935201315707280922171072879886319044491273854939916875244678487662754453789394441451502517115755577520436413126563329750384374102073644700138904406401367056619614985749 :=
  prime_of_ecCheck (a := 0)
    (x := 1551484923777675017175637999260267977186336787299157773193322807875670604737170056603134000560699731714821168662960689869949345608707890557828544110140822295132913449385244848567422956241393625692244622663)
    (y := 5328164334744660748036607532435568889672394590086743509913266935577207121607296896511456305803945466169542111104673201285739463311789282483002741889004493351146728845265263726837233788474619542037834754305)
    (by decide +kernel) e192_12

theorem e192_14 : Nat.Prime 10635184270619701174504730964109221085700664145546287493895540066170131216328284400049870951192908223780225248945488088319994589047387921750588607751527157786499257544679600104560570454096497726461464909632065607023 :=
  prime_of_ecCheck (a := 5900292805548502494962135349133103192682063100998124863485033442767167074582966081197594731972828378515717358607814529324008836244297318287325909491734933671862030906906941083730447658051041583910967626067278156493)
    (x := 9371238669553277083245234801122525277019080059059412098002112009181668099376004941883914113292707115851405096581161204585887169228023371480725320222788891606889924559120163346354664701397630572537351629268574361917)
    (y := 9619269936830085125036310920798131350043610362749633053315341032020130063501871916209638526954268981255575822563894225491970747892251983934711821124679352602359313807745065388818740079910838198867542889016113269351)
    (by decide +kernel) e192_13

theorem e192_15 : Nat.Prime 37424391582279050461407677673785796668518735399916488010899400921919990675927925095781691431786360132084614049373297469916217945569731558575467740062904842252236544678967168623678013767314783044674655873235776593452891626542310200396406169 :=
  prime_of_ecCheck (a := 17963467051204710954186764157437070971839390045274922685768389430856160184417418270191263287661149634507903182473277200925954038361797443528045847001210604824268665802199028298807250707328130299954518437584589428455625905856683170634194245)
    (x := 6352013761219940555872434209146992254005727918390724009202146350492205492383313811301061250044141760348327259523168225512658329566507403216402229950993873999455101785551674046098639245350670437463284606215035354345239918658897854863407231)
    (y := 35496411119940928167330827226592596727034534614440348002158461921137461378741872019515145248904124081012913717776096129690862269504074899749613280402677281651493896498136620012912889145711857333142210459782599914193388244809320056185901524)
    (by decide +kernel) e192_14

theorem e192_16 : Nat.Prime 8394204429673285821721366974470188780311372570511643944558383274110981952941501611903387015721364627457529220561365604492951077632344811563793501502599478644798204179978518057926570355799669132004313466880226715217745442851015312720669661114680969060895505427713 :=
  prime_of_ecCheck (a := 8224551590650504485690864586023809753822143042017181541498747502686444462946378632111412978688322155985015674654388601361598792372395792101600197140073869815376269894677503169769322728668069554533972832593679561995160519307747178117833634026960536925261062958825)
    (x := 7422328858612699632034239874556776933639978494701061422678833018150814240774525711288886096553775296204491800059403653123526964969881945847116376350661386365594961639422762467929539936280751036574548701856314256256262204624923242253132614957591130101615000752496)
    (y := 4501201167644786568009102007321985842760317689023595344477189188993752746633872049083897955751930321527617807314481265886181287649467413845461754446782464787495582187099228550504104981074870365342742097136247359516409293248194979708422212482635335879227820292420)
    (by decide +kernel) e192_15

theorem e192_17 : Nat.Prime 5829860370679955030160220105130807756727916563278930178950484020968974348980250238765365109852808578713600804253349210602514729650209909655319587607997830607666245558210174712899361586393541853524143547362318395459869449340593916917066797306116513876254283396678556144604565344141 :=
  prime_of_ecCheck (a := 2349467890596293576739278040858011531879000901869814264828703178072597238217958115436818266500118249899542749439295035536958063306265795063577577014334411931644678924181421804710364371983183904684317842818790174579268292031972260493786171797662940987438809483133784195120277986985)
    (x := 5783282548512237156675772587390459169105053308329835080140287108538238769565966020166324686321760552027697703521551557477544107512280845771790574358138761889312461031404650534425844912830258787883140239077422690207260931432186864504315619254749863393926446138985843302981226524887)
    (y := 4439055721573736168409491584178417683746493008074462703847163465988850630426425750424493585543763358500274789977182312061855321710634614307814305838146124679528299475226695148514036927171491282081178281176084872362389900524370521800818957095201100903320597917224491301556609235652)
    (by decide +kernel) e192_16

theorem e192_18 : Nat.Prime 223834946819549318515536645716693002513104075254411784397082166692303202844303973287995669919625667988090796533918465579433317451765642719240465006209402182258157393552567841195582103582704471675577972005216567157782148251080839103575464641345710482527907274192354526309006115238924060751017213 :=
  prime_of_ecCheck (a := 54126054066947046843320342583218873304213787318195682654688502162635772033547705535574672866059591757299620716764154564826905113184217890388573954359471978393335590864280563401831990132626188231157388351943121451756234553670443434763403176625408739626344428262823663896163694045916325180183698)
    (x := 177981727952329684135946793896074806920763237816377474793620310543988745881251304597283750134905465363580712064775733686234135633561318479589017286588885688315723430687080856733106095047826668937931113133077762281964231195571121603169717426924228858015235155428458030226593802142475955128995302)
    (y := 8265598451967795098624774690416431299408590208267919914588260423956011093469480462500732412613595829534114149103790629320040148689604754507196190088614977454313873729674745560519481061662776508687425052311607577113314619932299398770500230384461588015096162472835247787690406152097239808044006)
    (by decide +kernel) e192_17

theorem e192_19 : Nat.Prime 11616797509390433949753341228553691826379028954250915641865403899711572504081743268822561343507505396290293510465010042884340012036115727167607413575749970736030077353340494779364436649133945105670356243914807593996258663140307391608164589783595968346240981864125263611084555377128836815324573067132861050232979 :=
  prime_of_ecCheck (a := 9272235337050063620221899792568360630055145636832640785035992679607782923528815892489813457260537737853138017495400359078704764412960800786249895871145285842902652913562815654497419665400050600121277682705234695128432009665574524446662980502540749984655618564354410396392057622734663965882403320384164518154527)
    (x := 9741565376214567176452499692601587911131982559012344322764809144759979687807255706192640122536313259747338204961382250710453647805134464459342990542903047320847964734390903756765563365816429542380992719117069247769071860727452179190837387887046135054692887416973625181796772826983985096223921561108785901041631)
    (y := 688427395762232766137651455877958618606397921814766106590338145836271043046544746529694350196099959731002649730106480353501471611940515378053940797662678370442215050837232140402838109884871459646457232117373403033129501384199308766047489008150769568450988082865762056349495868746356091723250655442791534883258)
    (by decide +kernel) e192_18

theorem e192_20 : Nat.Prime 1262987019136642587575683221647667390508640596831077916526747604087394244304152718066043367945073021866265702209943313874987909553955613197267743882767613661151284624075820880531209716178705566495509683542161579465858028093662294801762181913969143002681602721509460558623556918886847606923426109981727801265699184900119 :=
  prime_of_ecCheck (a := 0)
    (x := 1220410039519570996979992925313278702335548323959798997951091185642320209988821171096840288180143471278495739831882698556748173684837285808766933340070771008707125814586081068847018513374531344436254572305558031795042077857364821065643732344900308389855203161624085099319787162199643313269383136753698367593278732393718)
    (y := 215083733979542443894892216596069437673536452425474591679602927840500621051653382348362600580713395547542564907789891556334994063897868849614102017666586096799172240817811191192026198018475019854274745489318408802037641300907340543977046256367675005548529755321881471052365433375740962440560140151521453618244143179891)
    (by decide +kernel) e192_19

theorem e192_21 : Nat.Prime 1209588204309105126070381496595892909747560315687622528855844851438954989976833794894825767198644240883737172659442554099950496585368980276775431233586560505111677372152082441890968616024154517668228080195809415959123780596195546975143151143814791564731876879377677496553546061623540946418264305885263453715249520895251997304523973 :=
  prime_of_ecCheck (a := 508945850395338620189826978056616068082127387117562493013972615588488334153540817842962873990722297365984895711969976171416038553351361828177402049048422170340611407300821659431237442992432169926942716499227095938737290150963158162509486244166361779583626967022067750283033008104077554388395561398109416998717570018151950231264885)
    (x := 1086630168212239453794856699301943438478139944697536270079483302032757880189029573079783266599915638058861855682527018594527165048471126262017125535833329709402092562622752687847920697461713360875881309637602537750965070362398246903114854164187857533473313858430958264629908363067644293983728415507280288939643872589413454248399339)
    (y := 78573723640865499439271791957969768903743524667058941291035145414060954485135076387777003617170988464196465271903152568411572882089204546089210588976187385496402817283806275666983214839919088939173569229510327656074277612000173497507660746483466590338979806900217058064828440177214317216542601962414835915934679254077091189449996)
    (by decide +kernel) e192_20

theorem e192_22 : Nat.Prime 306534772948867038914602346090177849212641727794351345919781646149244316481935805739918041126478726051160813104358703025153502604366063556909779423046038782259104161595709052426050821300786621629516602131978448262016197580070027859526782555205350033345260204069908758260442923947347922360223663397879319918715135264697948323690313094508357675017 :=
  prime_of_ecCheck (a := 153322609777665460354056290054610273974775455588334524597779621763115891952206045600795638611584237556712426644018944507564349975029072042091235360058975138245597060954910253677230391788184155778689810108438139118655783327613038305002979702725328560555455841718598778092619018674994055484417830376897137242450653360359677227224748259628334737618)
    (x := 17375219804470389545218609950091125636308190553339950144846597064655375948793893712180291619758846396882543946746951499392887792267922961644061515394367193830712967027073660987403355865783498115030748287674244498673086637252900979054225516144652532592561253659786342448503520460657708113895781169763422941799879531557937104866719779371196358812)
    (y := 80516992754656555396482919740495535647682172494951979959493616701001666911312861430340000053079488415226263999673456982068261604265962235188724822463740102800386204086791431030327720516382807107367361616656585216299014321868696807739040999389282334661209411454696377528914970821872707357229874271792198175405198459213996630063950245138971661199)
    (by decide +kernel) e192_21

theorem e192_23 : Nat.Prime 209754032635816966587900378610312004645334675174294022069408937585181605825518255573935164289995100848995027481999952432035842523907665054031679891236450506462145069662528424388376665702778985486304464908082886070135187952937751665432172757316971754133497128331616685827187858878452197516927875963383601602123984980292083686381811022674016420615248276272784520347 :=
  prime_of_ecCheck (a := 12994962429355866490557568790719767327896396808816736193025229984005073467587483077027754827450933187610890608726822963746776585212865262053647263342495183203469400322378368516726651276917924312585265646964579151720904324612205821118740883842051602911897359582670513389970044692711182275234087782999622751206951300958010573112663114641726193875593535696253960209)
    (x := 36966236063072227076785912791189978581322914617127734084854259051641004058456677327139657429277249081635161314041864117407840846101960437539144833749059705544591779417063807505680213970139473045416854752629297658460747254833324284619434422054053987529323399127617564540000863462215168452673831188120085782600806752410043746559503520005968692008691362061823302629)
    (y := 202525774050544934140737600684312023901815406995168781685822130812722647973873048567292835261683501642829144008456908090178903940693616377799481929775429889117589155160400420729770408604669648101980467758997193263931273185463493411894543281535783815327797300102896924669774307808328332489638943736070848090945683488542895903955779729913261859770998192895491765236)
    (by decide +kernel) e192_22

theorem e192_24 : Nat.Prime 3296074868839227812962266549482442840996789085688856262798692045213543753942193868088817171652983014741107861852147252517011229420685048659053817810889583258546147624676971660838950921376262092580887272442035839213930411107066085976429623560074930752187465526462216398840018123939613858835970545154171216867220277396523743072646791167969458068174766124896285806463957 :=
  prime_of_ecCheck (a := 1073579093240461946605183536636001755911695915208099464098317132746905350712479894232333792913823822968879570624417831183858848964661643162829967531966834835952303595767257236622841075771080066797435742539154468006297218282567128013550921293214419043287781044162948382447995005578996066762104704993318286647592494070846190353450059958315179609767624074843053153634766)
    (x := 3129744916011681947011971768511814238197075429511462527105884462723317187029130570193446536205562730935078951226447685983990645793002099141185921989306162021483149820009925302000138219894508078280752140249275368681380617161660851005634011023686295580916874052922081343804820552189374572801898578731004957829329393003936971197689828691365780448733604810416975388958581)
    (y := 288465031492887596214789330143699177095407347794268861507621896207525535488251625398097279778399301822561305001035582872724790105496757500244265028419065563423837321306740722417976784178187342794119724540643266552794080777431316989781107321791196324071589153069190415450395922185981297783387752076013879864518254160164646295644387328741817425089519603873795390444562)
    (by decide +kernel) e192_23

theorem e192_25 : Nat.Prime 40404679187546730134402443478399976992991657573931076804571171602477961768367285282970200250380936638142829106602189773273850489389095985853167751658848425452587477294113979430426225008282412945803893017622231797288063246215211155853685468580079000345623608866805457815418196810643352928402071573457367245223969221097993874376199768902167765878434326288244801199535564373451027 :=
  prime_of_ecCheck (a := 28356359920602585693525595333385746567974744442215078832314673101176179274292490966415318737397837738578422332836255276305900132289271216704229922281548245521642453343069384479417856681392949369585846181236876243173056047916116427609138974135650487375649398147426706405267502140464631754901037255434496385495538678604191246956174395407752511913873593017054858620836404066981573)
    (x := 20830573951289033613964473065190674086684419358368884034881560251939450331600991978241270930817011267507549318457896419153175418498827689605867681804183446806809255288463520442774473550722715582697506418023489696691530402123548002363858953149774794386861577263434212146715809441826184067466352543736386127295832419295438073149201233929879350831664409287257800469129902212882042)
    (y := 6485345632382182584226783759721382452019166329690136955779088352982136033115798882156121683792455876415476277127386436956134099007252285405890616063261208362171111371293634585034489871245734380735314427837256394792008951103739752887934801361104410239108761138116834801512300989006727609481637854119252571209206365662232147407293074894017988990336374547789657428598023871634367)
    (by decide +kernel) e192_24

theorem e192_26 : Nat.Prime 6659683535578297987423056267575461292991615884903884529090743771348283606817125703211339819768217203525276753074815050739137812818270328145648738490230399652819577467003490601426721682771606579777320334961080758561568079666144869720788890245952828139724219854371695421476867666548263485464244138566584327102346316422053729792814019622816069441406184175334994434750161581158912671415313243536891 :=
  prime_of_ecCheck (a := 3424476355779732873496609932406473115557738263339462505125649867382361743828699883408945659884842946545628120179045410136573449218811076702997160900079466968535010770588829501821328416335080093652054565900396314270939952807860024401099861196148675663193677173089603432694974273661134332111150818448007596328163759061073486252479729221998668334607481077789912380463822535512732660391264716609884)
    (x := 4181790304318497398449983265347993765917401801455013080299502094834169046668127382342351290239950014438751363501914878973681325426950001870283660327826914714906040233481667595838755129356531312285034380587422980194667190523791204281448037948415852746789339886236938762865149853840914277883593888212848812234247007284377554894342964150724709560624188168506873434751551114347463442487218956416655)
    (y := 5026994386410713918150986965491151871285432727194925932591992041232733341425410580967033359073950595881083426201291606385145138734545844991716370885391237261994460801274616801685037520501621047005923122537012684699088956609564995614058179643817770361179377597406369386648928968082736421645651928268000530150796077018166669821819554317050563489184983008282285659215513723452388609014821869552176)
    (by decide +kernel) e192_25

theorem e192_27 : Nat.Prime 52152524204227208762139195160665835139757763412711382559141647852193391767289340120395749247628022370467169026098842456480326652486595860522019554686942789913455950457255155141111218666505654167854747487139616130676473616599545453479971261431926782789912209624451389018202192534758240749466535066085336782057816097849859310817392536169640908281058523265597851594307783941355509476358461743702588921743136131761 :=
  prime_of_ecCheck (a := 1915960421501149226443143378205085110259747280786384078339864645937189368184915408887626640348092004777540170582461395948887486919976823159794401017507478793715331879049202217993154265321257937568985999249202919435233797241183148577505502481674182496444994788201151766714295708022356946365886571853323615825277875737727240867642278821982353078910883758537807152683645753839196051983861603456776576233976676285)
    (x := 4739961463211510877343413173730027288372246717972690793145327695879507521838410006172419874209300626863512117198540438349652740524140420803856821027635312777819880004708071781737791080056403650787167528577654487391688602843160861324758309263295653010730482817195742831296872860926343256733991611934388196234206788717768754250078938727489938296479857918302455260291748034589555815434571548495183604605278958899)
    (y := 29684057981534201063098550878117957121122518680697051065648534657897527217686449488581553110331596035646306533078612424433335403073911604745358191328017300456403576101931487494971808724238703034943036609310662507269565975116198593307320930513671721096747386092430915780985361109952442893378262795509991835885602583396683205349531085479597317398380373129364356572109723897013817063805711429654952628286375381735)
    (by decide +kernel) e192_26

theorem e192_28 : Nat.Prime 124430247782183558362757284614974471376629738394953268179057298460221558975056031254394336622408405652277602351413054348688899359235115606430535711527887796946041459237339445461026310440242749009811781350417878404496506840165385169267002397443711199303633426255931611265537703993777088516269916913210897100871431583004145737900716846974181984667431940192077337126048958336501496454165769554808560466436500127234323698882340057103 :=
  prime_of_ecCheck (a := 26686203382462942114864832821000680499586809974578186852716705326325994555047894832062241357278087959922348611059670057592859226367510631886695081769040231173388678832729559554969394069292691597111014745387093840408204901038928177244830055737901292492703291230989432668537874053842163692107310033791403624235232412927793713115127277221036588349821686199717720098616111191406799586297718601536719662898382294476377787846010837513)
    (x := 58790257131188357740671549883634378750212949303335071110985261845148711520909049876468440429932116284990732812991587378088514603255334963795363473522635606744260813383589877274484743423448023505573466947603438878379520361087771793537863726879677860225191783191359533692627150148449310186281274494280706153463616109367208337804503760750238509364348935898248097767370730155370375816155071301318347887685910228142536159265402714628)
    (y := 61365429010088464955607486107214045574465512016698806246628467869251379481440380753369215289925736242245178224917357868514487896949648960743123062419730187801865142419217088204773461594445115506112752570389311631310940226865455644606821946263076674675411003327365018247262824813249898526523325533058180164748354954525805205723602373351845843091422743026445472123440990387727425349114095190035566790828357176773714611463712047231)
    (by decide +kernel) e192_27

theorem e192_29 : Nat.Prime 7120441273515179677645942279246031993199699959639555019277598647923510339045033500954605519445040212457250935576267926255044790816219981333783643659478107880820887908793882345531105916829852145159520392186260044526805292740770196783893978060589755820691007693537477942960161063476380609515907638525560339821204916536934287439221744511842565997993180985538149412715187501234669613831704922743306056345841968331847106733246053207287019800904333300063 :=
  prime_of_ecCheck (a := 1999018034146872795693183311931502275566851550438165093994196658405993255820640708138359030595384619700134555738276482949255153414129620079981155430987326782210695824531157112549704402145220582391975620970200296746757888233543858365359032267061284921003091050349346846891469812626455359931068091673718265472290538953197590705278654273166582822195238135517084443077572474598532325747170155167301450882088924960946457724650808050624269153074606051266)
    (x := 4310420428851021059951020087341663523968702606150079166280571157457123398102465203501711972065636207527138188279329168631965301727958022919655796110685159631910696118932217397410146387642159701659803765139551595241849670637327327625467432261925131793730561550254304233762459583341762171574694698747002301942236130774703225269275166425476568133338523537012832145443950917589786565675103064608741410575218092960996960888446549212548039480542118745616)
    (y := 4067568436801892166299440868216064991713771812463474257562086392717963988370384337847035321913807026547784431576926690061657281957847098769063254419797465091089794953307828649601953732876784268281844533020930000474247923741894682174130584503049832330422416865307673011819015413971944912217020257763965018103533280158711617158203319748438134357217515256999629975785779701227520845918774443116944577536073445225493948608940063032046648404099599922669)
    (by decide +kernel) e192_28

theorem prime_size_192 : Nat.Prime (2 ^ 1536 + 75) :=
  prime_of_ecCheck (a := 1288279343964639701126613810964566868833894700936119615322594932410815095358755460521058947694910402718693840683681518482286160434345585937306456386650042036648264502688420081382420427461555580608182688117858569563453522178444545405168283915406848602374716366297951436511234241032941983586898920589054199758287682076455249422315774652289698423166396562239877924176992488005612354471231885435822098874008321529771447967570050435339745083053332757107232274507117608)
    (x := 1760644864373909368748138537827338179864779156006299177382736489858427243395268657923821974152892908882421599699213922665924931063203820834479939429002376738591664041681135529650280833748373998235428717976123633385594113850816210966521201591598370169704905350125176583805529582915643480493304556927763832724466626900226887980399747944131341878967150933347778284392819943629636515867238434274482250805799817176612754059170421153440035959489576785756063169962771232)
    (y := 132138693342976259582611832498845129292999483161886274049929385718578160174407882189701852351627344531787181755781236349226036545007663952676239220825701220327900945125964814089720546957013937522013329476745327257731381765292066367087094365630339741597909553186776665787269781251080440648072788635183500796108862652618614071492516537843023884629675101329734432439398529470081474545585730630487795655051107493121073597116014480780041420085611018347506422025963275)
    (by decide +kernel) e192_29

end Aiootp.Primes
