import Verif.Proofs.EstCheck

/-! # Certificates for the floating point estimates, part 8

Generated: the last two arguments of `segCheck` hold the block lengths. -/

namespace NumPrime

theorem estSeg35 : segCheck 9029729 9429729 604284 629232 201 140
    51512326511312425310730643828359305123348705087973805751988497980765136524518580895331095668105518682022269428402738145800014317899793143646673590594166510280620318609573288323974209715210056150853069114950833042601986089327984254081705221108231349330048114759530679525440358809610181608932931151903920364801812900071129232366670518402726905030577430653451840765990195069586236166022181101513916956622651101765744533599501047286714599887256073777853698737727668754274737828434003679529034354650253237722448141071727884145349445041148886420890553697310852105700614901329797242158952761533142903297914717881376008369384523443239132732807773675287164521048060742741691668893096946724875063350605471378114104257410221191757858966465430083192181845865155964879591344417766054692460788635713703093510145920436261216530339154257344610512706335472736818168271167115202841428529951966425018123007058331922925692
    845303352343128027820552254718656641509905945284533626321959891640630482375729426605670637083958545881920111612365169628725313357954627009311596376627855067749630126580040748575261639933056543013181182724961591137384637839639936586723244542206001793487156535665341456382356336479333238340807903768647440441053491766083311230779488107732041188002768907909955925736706492213936598480929653987057009375637685782278489929796712599426555416139718741048640424529735481639925691603968994907137017522771533802440406272256863779797447797716714198566791710843733658621241018482909302724536522676412486523813289366573736964222005097638579852668244294985920516463752134835911855714832298636119712909926734240509723352684626696513011941425824675770723335076741591626636966449306463333422732517051901230656103058682865984763955230862933391960622267310056575634279501187809604315017387062712617712819945219951315144883547811480151818371864690363265881362006682496746969742143557498427620386490714773266884602700549948536439442403011069528872234108371684378537434396995684918401773045278287796817190477261203907887349199949706996823347320460805783592062757068380392788401713733045566355173744238398544215507662180903026219059947743423369863464814903900414829749515521080 = true := by
  decide +kernel

theorem estSeg36 : segCheck 9429729 9829729 629232 654125 193 136
    28133386490960859229776996890330592201187541229466398966205247208329174146994209133186471792279722005054666541889403283671649161035569039240863780213530676388949058700101031684697156797241937319524725032892809005944470603064810161068964651691849424165325452229905001093805735522443374672642963356040165724888546736229491550741033687922487529895903746887789710324244517518623159384227051269666924303801758120449832756192025537896278821282819120677017685233873572455391952618021248108900918775216875540355725398630810029572213451336417268305736008801041553966579007114305635265777626361470240357589962121538824062095162615871783337923138767701585750279069836534535659463875178670535130805772750755827419416749259662068809386441476190907901668819632789240646065710855653775501929083705933444967817605527380820104987152529970583125759291368105389572308189960259110832292
    527228579198706804683773662759842193455706036328007316523315981393462927045808547192423500740400158851564359422578538233201699242573880282414537367539613743166003304021418899349557063322381043972339698452138492418889919544396956701430335690755792449829326799590221270475979850231377259395418451128922777664036631818540724008187149106865251260170223895180080939566697485645708326275955827048282072685275415671711915626809564834543727874430233606165686031931566119433210986334510383812998664839572860359658244384160269086880323726240311469532014725075195218937317624026145094748530901370659630504823284236815946802829645486992031739739535346454853414305831791653778644326496328851466348398222445752660776024783628906489682171879576722976551763739956544367827328831053260706489556415590806833587332094327410733442650488619284876226632402659436510390730048053360992257538885459086118571935897510106399285877844333897742616212153980264143067663286416054416617066666685277024537508682709442134400129905951419977217759201997965384802001406009031564905981170051990817794267696742502915590144720036222312836569967871969526237346017369496232486502867348937172218972469192246515101591851047663347803270859191937741535872802619394 = true := by
  decide +kernel

theorem estSeg37 : segCheck 9829729 10229729 654125 678822 137 136
    6125890113700754369280815727576396809060272846764876941184100471606084536331172505612637211872495831395947234619427506767717258981735253138725710119246005079771731568346512503074618962201241227318137897293389891472214446931581645539791962306810574904106470025997755590374039842239831167049958883494343631302587697803495103672910437996721167826556778424089238497313795470478393335780901372668601828854399827373239494369380183360854505685835500368625836305489057250317192071836561581780104052046493462827241869501565834127087332791592401899385554755370769388149043460186516873872440479131582624446314235710552049501
    347862240260764834174196481889020767724295268451242963038047253969328090325941497417099950210514949948234670819092144530123133876902116450888062029757210801455649177885559281390898010696733360607217942312057529214144126032255051610832362392640468598736064480283809271594607308962204849651841733995877636788350511730820300796865683834386104361779951900906257133255151503277961575242931974902641571458314297199459666479529881152027038792747189741996608700237065587366610795721367646001209371804092705123106121318956314995074243044721997317879177249717373583238990572684492908756610717627124595283536690332005761674026461987560321723531005810215193512631471401161808592894640991041982676153623479280692047963790582719846691168390518501036395016795526894480945986696068203320086951412890769031929926434633368871133737395438523217093146514926300211759513440745262056038113660419220372618098000789268068504258066293067959096209594326612050695979455926984613478895400629864815428079158676667933815350126768389403646440769752296317380028060765371037496913917308091941637054090846158994431968613134920818413467315707520518613294068107857243950622940848945362383759646590443707244146003776681385564766361102756817885091332096010 = true := by
  decide +kernel

theorem estSeg38 : segCheck 10229729 10629729 678822 703623 128 452
    42640098085004804585196759782388080405540755322654857821625153514115569600090166291194226116797162015584838287057629485010757381547389522497470311164793882154787890333538167593892218714265346813031592649520841354634044829961572274356194397658502304327871438542837236022216744813318093811645150581974975914083212604771250544045910963925902704434778952635922779093378517949876310934909553754756488102796847073407700710301791795705054196352075917826930680455106949031726506837718030658281986401051760032339807797272840290752129101483310955786286136015310761008333766264229404
    584465100134668181474170752606768930578089806831363218022134645864298090713297528223488273648013472258979749767066177009239949036201165274474724030443171284199542679085700229917914997140964570125761821134475430117025559640528454597731361377881366127297771179240043336441740760435265334238557464691540669175356555221822112205345142835539620800933689119438653951130188874808521400545361454395344464845359884693335253670128481327577920393387583891615569861269797997274538534289030137658153920643681573063134760074894273617939225838330123112829977073950769051042482559971686356558072085105144806069281379465430531454995809562526455179281305584637064097421522809180599618455601090194955464188377112672349427145324975701128641724328361272064016380836950356729965180975174949516092785021785673421526500056208351107044926255085673630687913939250117550914648011808031680161398004624331483193709787156213984811444137469723937692217729964272391427556297614410587421292801786989120075794690634390980266244371610152539530399148681245943038601316035260956721673745196780668180164156560881661485792441819712763630348911132781196551641103767027581341459843576927855976449664271944987309263061396066134788020159022063678419121640333585699442474391528898997867946174789073654989528424076077628096431902390251318199287316763820718944354576438042788745000254503639602543555451075658675953830698746336797921572310667617236017754384172288425500550364186547250706935319191315004835719169086363191144128537252892481806411089342612497028293592677238091415245082177117548413755062059453402669944229669623289110165219288702436215902545040828834582622627572202632228267908459868551524600746620933723046290596875004263529573580986488655383244309582144501298499686420056401780862239463575562501229590482533253798040972309847429919303880434717956906264917199627106213884204458245103585186495183817553038780251249680961671972542164539352766133856631561420106579097220197936273447955097476347547675749563097514103633739526885464368416008801921160668824632898531982427416874258182832766375573433511741776357830364764648396274034984594772532262765603409846918693443179756051092371693562876696253759491072878023226617374270965129760871904711954563368210652772052648236451250372106776882180962491179893424164290088248299211424357012451950923280600241836300130145717352184953307917191061919232629081003367590264941014482034656399039252100066201297944058336241674119766115478893690289661453000068184060203689072895164229566748438932911146652852184256170075122609879037202787626794212178933828306850555328293293722652281415701654904054311339325930850449855926006015111662469985288165919751545917513826655677024040729131872181908387467797012695372983953626381852187916843956905831948660336898440138739556546960583299347835650263485878209086833107865828483943607518172535663180801323056029340188567682185162379688255621671883431806367154124072054395213570188447634069274677302577659524030265489869951986958951386974911227893639593043223997127615055961328927394147525453436480729414868475236156447926899827617412107301942973042002448602447864453253086665002616239544951970208571885435062512106926451942526724435538592112645104437587310828235238774258615446545756442347221621705987019179903658088638545364326751868953645232240671017891684714210982813906422440195077057811812263249927842750857789883762414686664676489027157861474805494453994824777806994492279575534546207450656142214001177647269104698792017399400580205523881050774309175595745517662559454840544336287200672976977966932977865160924759077877958706669857191332108152468365124837794964207999121717461597987096132157880718794659109163553425812300172113742147338423244162078837381605964136143814385461936263590292358308087204384887456994706353606253073970463214681877497173628037330464966272008299579798589633839760039490378050448429982107102399239166421839655792260879905587957933392754239651473382924965843320585064282492367306399194569927872730890495839590791139413745329719347494231739886002485622998605801111286146045972020012698605122338626948041290 = true := by
  decide +kernel

theorem estSeg39 : segCheck 10629729 11029729 703623 728322 169 267
    24318537316517012450836232040039250073406233805075233196463756201545044039225516908075922790226259061697186210988539857986279270038898063939626943235361462100100270494112842108195267289902962780623893482835628213807609000043069138963619821511798375920221303039995866851566535720319252323147929491841039654960914672149520251926708228174556223254399439473386059092328554044152501895235047046182745440626085608658659525322488340795304802190654600897630401836339742719103704172681120368502829615576199478441483355316239751710253753719923381796792633414999357230831890832300954937250285576944492594121731052884203295138409701905040532484895627337257766881973292118463654951856060436183178032980042270880855711515257572786785235084816278504767445186141478019992394
    50574479382387583287188529229444079097743093279856323066925656714675910495943795694322567936731772438886602069508871657711013551224176283995620946391596882181557817481196537885786915914615224791325817344535542619947326794079493243571082973219499092636326042158611260101566942537250300686190720702586384997919783304884322491464067789321036699288493807004023827842254276913439033700362326076650388542915052982139666909178876007193362240106414538884430456192517513887648241071117349018518791712858886367186298063352277198439709586605092926447479414192711448451690244565757363355782514466322906132541110963231840385407765913471846058284142014012930196851965697182949851876939321723958859672859537334990958240235662166531299893343975205924768335828806414451583819193279403365820187060416102792774698995217414267661378860551514733869094546376252503221739830289651547367581746404896241181233742594062872770904915388389017795343262362436440435148406934971440110613599713510843895386889580597582014030652557456613279827806392094667503946581920386463869060379582447186536261945800396312237490531028533378778502842433764839001051723262083611286332871383471424883444401324549206327269658195832185895942418001269656884659422481210861015341920414967936980823990087542162101492592921146393807060248614129519621403624591503509151852158159053984596763566022619829605982736149297664905241261271963267195182414132259344194428729883725957905071782346953890235388324199465804947239042745943027997135729974669699664663684526449632680265512345934268990571056212462770358214772210624168823841739700849931553249934323395164078167456712119870727126524292595778067263447145720560460546086859524980779249637328309639436360430660568387880344645081513663971099956368265736657645440903428411263278252219512551415837374864730571319380544857717383493622674751899554774074138188568820609299332818209451694985184201200051622284355883053834148334237968410115360679480650825874158506225321830548848655127756003719345317212062855096504929943392853040291510832148199838074045800176325459526602294873073178015808659993435340872767050228146137622969729346408080887953363303433377310480942890643648556649656442726430254960794614672056196506939271012114025261359035558686582621627493617243651247450319746530919671671070565163215336771743952535439603627171556607200039089515295771000851161913154802860509111227174862360648500778135915052662794 = true := by
  decide +kernel

theorem estSeg40 : segCheck 11029729 11534336 728322 759401 210 314
    3841360454997393389519936354090415914887247297998690466930806026647875404528153296150748283536122871262402949536744975579669692674485116016272326377440806269453418662843793310605029576270510902435648507325472909500618516995356949766150459380646093260729477990352822633471050690597164828094717407254478762896925418716336986179745258180549569849561866890631191225933494039637547900725485633150994595203348327665059504615047927832994645753955717195645957687731814604926732390660466514685612142987704475360269300492260330732995364593522484809316606825641220284504417890640767053371931236614547691411427222271320131608637680848199431755684810117439648108706270836240928315579823083847042677882592400492414198971939892400851387762024870114197275501827661678021194605657574535352922031091687424357070147487641902255166013558738229765878235381813154796017507106564810282317350220741539566018274141495901656446149386405193901331525530670837757930048134
    2865875165133764768677686117035612398589629658110098667494826529810817230058210527321573356889721195204445833855681321182261205719033329614656010802669667369012881744362985857829216663352114599228514036040831124422755031281031746785101300103190544048432128395017997257468598837717912652195719602258845353825654713499485605781571854523532900831840807529795208382924994802226518352477985508607482689692723417307845476789655798554669595880119800762316236510267469783780789727828969068711744861563008625354372584798635326121082114231473780824276954373200851783637038570191852072956350507971943642014119400028736793687879392444182740395695703083268172185820039304835763950054755232949989362368014837623504856312050560257938121282227385902258946040933014634217420039187034854667774243546549684972091983825570454996097867077840070967906101972615115674170755571837380362336488923302001976437288642834425196128623805404708116084312777916748190232267667860255881116185784841362518016523491038141176196046131836235484998663441640007751635704624225210029447061075595708159987723337542701152137086850700682726809776203641414713270618485923469862997318227048396053142131280492921869643186657993862623438129639562077006885574240618443613734392291086427008091077924531530856709295698870553104302415885110980068944109818425117077644194748812794131656177528738343157775354412632083723261706552697058373146385753530759959464352301348424553362776160229819637991584718714049610698710319651307238525697057661040556609322083319336866358513389995330814795928878683624326348392321949942640963012050746980826732997608670614817847943085824354918643962098249076846487274601875270631570180042073602529591196664209646616051440102800691921633097088679160721184316109678019697408909106562331480088238106107359420937817121014163165365055767999113917512796511531261077163019621516549294386160492522228202266055677413406358900532367867903254343838137465325443650635093143104878801218238090378673069469533797433656331919767134530266691440320913348131589692921199783816528633485467277395352213441000797197484419857950313287137565232029771450037004844858134347092593988833568072146408745455540584327952909934613900467875567296697192054915913105428799716456176023604858367596379448049950812048330968551540029657584862789288081042023929850645180523349213012614985775232177936775434744822731026696807376233290060857678755349477991765788948654330606758625255356276582457525352064794978103221081955002795213458476499126081905941169495742485423703818890629166659631994668021149576820531477510352841027345433627779734800011929746671899629830539023195325605250153481695339264204855031919166881889357732144367467104927604080715431123101546954602348507194581293706540877394357141561234866619040756810247556503758918175307866732253660032541915964428710741254098782188209388 = true := by
  decide +kernel

end NumPrime
