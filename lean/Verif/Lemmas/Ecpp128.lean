import Verif.Lemmas.Ecpp
import Verif.Lemmas.Pocklington

/-
Generated: certificates for the prime that the permutations of 128 bytes use (aiootp/_constants/datasets.py:45-369) and for the primes that it rests on.
The arguments of `prime_of_ecCheck` are the coefficient of a curve, and the coordinates of a point and its order; those of `prime_of_check` are rows of a prime factor of the predecessor, its exponent and a base.
-/

-- one after the other, to save memory
set_option Elab.async false

namespace Aiootp.Primes

theorem e128_p1223 : Nat.Prime 1223 := prime_of_small (by decide +kernel)

theorem e128_p457403 : Nat.Prime 457403 :=
  prime_of_check (rows := [(1223, 1, 2)]) (by decide +kernel)
    (List.forall_mem_cons.2 ⟨e128_p1223, List.forall_mem_nil _⟩)

theorem e128_p6403643 : Nat.Prime 6403643 :=
  prime_of_check (rows := [(457403, 1, 2)]) (by decide +kernel)
    (List.forall_mem_cons.2 ⟨e128_p457403, List.forall_mem_nil _⟩)

theorem e128_p262882352437 : Nat.Prime 262882352437 :=
  prime_of_check (rows := [(6403643, 1, 2)]) (by decide +kernel)
    (List.forall_mem_cons.2 ⟨e128_p6403643, List.forall_mem_nil _⟩)

theorem e128_1 : Nat.Prime 3105737366104675218643 :=
  prime_of_ecCheck (a := 0)
    (x := 2825686551892097291462)
    (y := 2911081143316460587770)
    (by decide +kernel) e128_p262882352437

theorem e128_2 : Nat.Prime 102443476971733091788858101156619 :=
  prime_of_ecCheck (a := 0)
    (x := 60450530504777039850200597802368)
    (y := 28504385107980972609356967803195)
    (by decide +kernel) e128_1

theorem e128_3 : Nat.Prime 796577062863742187676846118449110315437859137 :=
  prime_of_ecCheck (a := 0)
    (x := 303881914905513715708355106460767369595315017)
    (y := 784514836937457387834870667843431701008290068)
    (by decide +kernel) e128_2

theorem e128_4 : Nat.Prime 3002350569676925085748380600254739438710642003963188042443791491 :=
  prime_of_ecCheck (a := 1537090507258726529764438093556960963884392812679032666100239310)
    (x := 1219486368084899134631495993619160245425994228505647462970043890)
    (y := 452368204227104371548099507682698795478389740199084605963455327)
    (by decide +kernel) e128_3

theorem e128_5 : Nat.Prime 4920732357574268072753462095664761340743594214474578532027885724826552819 :=
  prime_of_ecCheck (a := 0)
    (x := 1733937674207905509289424093518131318862803819430714286045776857601299502)
    (y := 4679634816149571844704930030960474719489979940193115220996089480888454787)
    (by decide +kernel) e128_4

theorem e128_6 : Nat.Prime 3616322166006001123068490316544941790568443653318110564476589306011747788411433377 :=
  prime_of_ecCheck (a := 3287325844064531465522277715681659437609793305958292748301891050745695333708387924)
    (x := 1637197114038677134350583305957679792964183676529987165452797551556331552859163488)
    (y := 3036091064934247306453179029736033872776438459598740864380889566131388404796880966)
    (by decide +kernel) e128_5

theorem e128_7 : Nat.Prime 11052964261184395518036011996597627640614845822855723576573342548030774329545873752338027436159238793671 :=
  prime_of_ecCheck (a := 8782610698418868394377890161438397861263496740108545671301597027336251900857505147926673014778901306140)
    (x := 1363604175323374355340854699667874554108813342276043205473028446920558246140011874416663636361304347683)
    (y := 3278592048163694718378230924978996657612445514551971611048718027825227450809690332242129829719095928078)
    (by decide +kernel) e128_6

theorem e128_8 : Nat.Prime 58634494628673860246191987654404854998361246572758845038133882894997904601832705583653466028057451024417807533121292577 :=
  prime_of_ecCheck (a := 56636698234828461416071870244885265236185486173388006552828674212972204164732513391976736452762755863161245329424771576)
    (x := 22634793800473736169287420103603098203587008068974024990932143060834849059322658295602077968989939450227927265682917863)
    (y := 25242571748457802306025281058671751191934920352045960194318483066911537467301215087423626743752274632313008565616488224)
    (by decide +kernel) e128_7

theorem e128_9 : Nat.Prime 621376415108850233686920057233743669288796214387208771214619475927573763309112043682671822496103320876603895293167890109528502111 :=
  prime_of_ecCheck (a := 44078610674251523069420697146430683640842412356082504096413571085626075149793748112078973351194131146904187878945786857313224218)
    (x := 83188183477325880976738243182305201370914723824063037411919953374215196466896235333259079223789048108530509664399054795941653263)
    (y := 170443920833822534386183407994147290158132149751203927722669930210698546180803537049217645408499941769289207234474813508007901721)
    (by decide +kernel) e128_8

theorem e128_10 : Nat.Prime 270484201560615990458100725516244487648382697838617331752626269730137114451371840518675633163107195085959694913854148274143610122789711837103487 :=
  prime_of_ecCheck (a := 200965961393322574344186000189056716286176055517430622512478945488458286709839015241308817907172825433052824674102368084636576415121988654156834)
    (x := 235779922325073365971706717166898590824645914228673735503099350826816796421189884496455288676404651935158340089222600239486420242616763361987868)
    (y := 190313926427528997495012776374299097657920947752834977852953593415573123780011830098285974307183870253344696408743540487970190326509804693350743)
    (by decide +kernel) e128_9

theorem e128_11 : Nat.Prime 6300664183908690442436783114793127556143100437103785231621211314012940223202703386238742857162805688980925203443856235255859712912878563049063797905194509 :=
  prime_of_ecCheck (a := 4555135313195002087972027051470254214470225562429228656073366677340681319336657684167412275181462407558730239706192887079899998973305875274573957137646821)
    (x := 4402931319881530882006274038855267918741553791098901119602446290578715796919603798303286637110173830248218401271913772460459282478544233087932798922961665)
    (y := 1382121441376305646428109715032045765290138586898923661954133759480379514984502183622895223394920291448415960046295585975944857086214848741951022588119762)
    (by decide +kernel) e128_10

theorem e128_12 : Nat.Prime 142551429589549239332234598437645110428550659637335021185458650448192401245873146255769196845187184830727901357144653318933105261414378315066559710266590641808842749487 :=
  prime_of_ecCheck (a := 17071779139245143738498865135649656560312117326831776241731844957926240028297566474893332159816804086092325467269802321062085711964834712276077146612974765025149510255)
    (x := 34585116549363063076940739334866956174698294471922067315397461637012406315234756666597979716754781081791897849166759088070461700240506161673535087239960279727321260702)
    (y := 29084235349146887495434983187502891711969771695495238762705011720434171225342719679055188163485276946170009697620445267111058749824009971354693369428889386141115191128)
    (by decide +kernel) e128_11

theorem e128_13 : Nat.Prime 5395083066950051529065047718245903520642993616741188967051150017362840674878775030777362808535735718203184960075898666581380771035693836912003570151518882230865594379802204764255480976097017 :=
  prime_of_ecCheck (a := 3910075314131929190075719878891493655072737483670728493830915959550940583863123352942666416161760157654306326816381794757723105990594394039009246223848928511066580611207768499639337152398544)
    (x := 343248715487935390232441079257235993339287212143752468840536267299266929168771544561087375938802628868395022466591040404853958446737399896022687570059593432946729078635357836212905667781347)
    (y := 5034528000072205396814523377464408282844060819410746381779153184241029244323178621401636811781348890283293242741706426200928223310310721758828907879506096184637502171858489249396273081470703)
    (by decide +kernel) e128_12

theorem e128_14 : Nat.Prime 183217572814646603463121495096029015506370145860353241735285036569727180918303073209441445017214032614165025459407681317949427172300839055305516040203435174857167263383536159754089560657192548173152998042519931019 :=
  prime_of_ecCheck (a := 180847214140776619004100405396258100243521506512970084882101784532015154482493139237583863070624113177151377500614762501982689894233035622546319198084455077338924408027315913426554099320181958447691045876433872026)
    (x := 150678881149755242490339469817546757501327222166399837801294418111845548021175749539146589864843899849293640692289479481066444772812591783449594014139522513936705239237245520079246344645949676204465729192270821102)
    (y := 156807921383234047191084662814087942849267933949433463914051473319352694685379540791860746938320547258252464315572407097986596360355329112092004302330654583941138075934681182614590890451912929983205204593265314568)
    (by decide +kernel) e128_13

theorem e128_15 : Nat.Prime 14548056375858329216532189303139248030562319679824917594860528097756664690527443956880177417268346185766496029078272487798175040551270446303069037686439813231533054319124805022021964370059249303541095841289307736059301427327421924804836511 :=
  prime_of_ecCheck (a := 8369438923079045155372869011463262677058345574552842392912610033755282011151945504176691252083163999300327982414231065839694296494793506931829227485789369407797336847911469443323360420524549293037968650274463292555568182792460419012895833)
    (x := 6738324668854571664629012983271448945120424042806224146308060475635296106873345532634150256586525909474549357786849899961809212418460406351004942043276972936017679965594828258590710438633999031758236844763073867861901472870807820971144307)
    (y := 1060459978420321507536050419571229462913362642640190715468409535968989932890461912555457669296509904197111446434972801879787452672412024198196156011100797241725382627682052599251197165089223104899424823916122307278036176330866751962988581)
    (by decide +kernel) e128_14

theorem e128_16 : Nat.Prime 610667149693901515370913756952930450271363595166029508987470812120383176909103931938973001034531437749111170239132578713547865667837995394743240771742911408323840471008132009539042640287750136139034110457524644061895374230138324885481048278690111212283 :=
  prime_of_ecCheck (a := 58679443783537766629445526384516775440764548891299987965619296856903363358954192763264567151020211347360606109512126746212829810670212716504427724146371224754872014126991117434977738404433501325065959275558771310861016366632354606065503467858015089617)
    (x := 344997756202292367047052935449340177246939186988459250427432362461078231790888727224654469630244308110596509018330534675384789499927981745856951533635605303177215184890571376565498297111547780896582602380898640357786944006624497384915625505974501664877)
    (y := 172702742175478604354131506721206766840115068657356403066082107798186827198501878285658681615602886693947837432454426922443232472290492921630595309794041361189051792250320545976401715047930395353504540098007412147714191166750034446527371902152688983856)
    (by decide +kernel) e128_15

theorem e128_17 : Nat.Prime 5904697275788300088843309531741668191260193981222145683659018045681572264139305663549343589899908519253129244770474019818535422060316302173011617914170949542947541726141719203818245004348884843371932802599982328707809444780392212507084439896799747004069057549065458179 :=
  prime_of_ecCheck (a := 5324092949210969971040456847567489502793809292176624348924175421776593029236847913011245130464152765892038540371008559919006723788284660798281828933182974679898088312266066946783780964303348639628017582778720037174147788923554264494899744481628024603873280307672241702)
    (x := 3751728084050576709169913549526718077973325545772344278842133474444225857279048017041902918451231790827946205668899038037410667987379441035554446979833546907410471759081508673900222069844645680660506615690634129542780512019742805891981590944737160982442724567273481365)
    (y := 3147045422457021938015266304659339284305859711182007391760889436293241425090467596882089120230425436051887612645555571751328200833631022596092400130325424008117693424733402815501060272226902544000444765129810329406997994414983918996972949447635260800738374312675734475)
    (by decide +kernel) e128_16

theorem e128_18 : Nat.Prime 113331825077665411003886368385841920549791992396590114144101745361239292373056712757064550512477086279304624595855422508399978996492066010230842602949817662221693005639916767604397052218419723936328433925502271159970142452137343777228339153612142548776523709869702069687952397203755803197562067951 :=
  prime_of_ecCheck (a := 59168283887576910828101141657078209509066007058909986425994131834489581849048025314650533414519033227169720572638000274631175626037354439762113147768624138103242848688153834783920986781613873397876826894338638212932605601120106327460301681453583703243583657125567529312287445383805712733187759635)
    (x := 41784128192117923531162256110638745825580434409897678555121015598043056728809253015844791446907209654751774785949612553098381034528650800852035693366076439684111429192560248310645271792359021108081076160295309941197561691738234886921577107988591368715974382997752139053307253308246947933392134035)
    (y := 29144532299128044306137680750609946552296922143211925294756547892813703457508444951145920208429316258362994465348212101372510792547781138317511342690997511010942341235875460118391801081604932889493342774423703057258880905447964552681343648354007383449304704654538912564353248530603648571979692858)
    (by decide +kernel) e128_17

theorem prime_size_128 : Nat.Prime (2 ^ 1024 + 643) :=
  prime_of_ecCheck (a := 111119694880417661176600179041107573508018103119273435019024635200166834739829168953260867830074629840457140821414419787336080657488993011265516405800732199522839250067932070182737455532290955148081032395881152143825850695065493361124184334865963254684016231898567029816426677554199241185849271159667647178998)
    (x := 175489023306260957342355634297360546760301099034145485997128425740257872267265724631825801820655395146353718024073690500763498728525317923448141811668240739939542493696486005924827686767412494313785215864825274858584500179320179151431247609200069597579743258370812781992966993854823351452245980509909763773205)
    (y := 83268707550678740318164799486184051595756492675829069035286279695300031737319814907803025007073885505717354775936109935990721224882365175705043817205676236602450210284901224242011786200817471540711248518912727562733602765056103974962063176159401241291792735745692001410767549613386042586680585808887230065987)
    (by decide +kernel) e128_18

end Aiootp.Primes
