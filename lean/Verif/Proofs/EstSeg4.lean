import Verif.Proofs.EstCheck

/-! # Certificates for the floating point estimates, part 4

Generated: the last two arguments of `segCheck` hold the block lengths. -/

namespace NumPrime

theorem estSeg14 : segCheck 1820344 2094847 136473 155460 411 243
    48123630857347421473720717089369863055191352380684917896936371806574282325652991834350699117028881270212116193588032097994786543783058353989970497718805423444915361289469058873043309295083263236301491597738643651024786656318964280856283049992672130724743016957515831898839151215119309206437093633271646931458975194724717901161383487410923544092377277618280962480931058300904759169969001305832699797872088295552223201888159640501564332194853369890625625036069662367911611953088008826020021507580442677065968739743665348046873748405026332442360579948806800295386211315229632249464407335460303818167547471702380361148993385356224583316432245984337937789182975574016355928195334511695815205096315370366360384866931079839012633543064665496271630079391338959001090652753204087843805776842025192982583331159445733119178386611604100786740000616685699942285009674682005172068019428151417171513300265143280649234384922559434748814632553174378808606760050771669946003460679922344395705102489822188059760544934970745199205111747958299046338844433334560314996397288620407736219621681266783642237492203069524003068780865882960144027518776091734404359054311565851946781050853990250946899989728577270522122903721604922388641201870881522557793153631110767553401901948151780188100288884255760026939972661550964961640950670562188032683365440306020171834381886375489582560561412667414853057792205525229482101622016800574063149035303635036216791021800351650275683241814022657413186479694957143341223626654736088331817948756744931629845179121735905368458978939049520005485642701078915828844376638694415077708397956286141036372583028403297440392610061360904137474854904853407288816263726541790881996639458090075363368609185946113338977655729791129810141230795537522333831841608598748472163412723521470403610145490481835548571389440297562095856539513595188108277759995773852
    412615381958108316101938455428563326882568375316530242995458003324189567608998446597316280906203109069313549794379754193589477677974037026849111735237147152873370463503709214282075877038796086759394417690251017558148166375571089243859748292760079311040597604232495719417841152627869311657325527725769697257564647423555661521970147054722961782865513750135062960832852056275057664701055216871692056708511129038141636821874478150595820451775994183396549415906082954381671429722484916608063186173413498360409040998065573812471088659025366375196114256866176823841892353493033709718271139115892566835078233464456951600199058778068064564396854128080806631834208695722835901876470349430840795661600837038882067443105012480206497876299038901846065191283086226207024443040021495411177224257696753666885146181530035161982683600126280343973044867835188019183018553574656599065001025719562278260439317789162849055799899559063604408008705776152235239764286935884369364787252160319048052052944525104243820517678289710355358564759161699512699941392605943653084509117155510166414969582525011473923779205957573415746082066721063855787717754016223436300505820512262646755324166941925391629785507168810464579745750436724721288141585566888981282656893194166748169506309291809942241249106659780948833722411965808856239528941954056868113521786101060895050700844800061528884878340634975515892513552171967773544305412397057302460222165041396880019438303179876328120455279298305529887655405273030973830020989945217988402234787222025332721120683401944982194418432246223770977532567977389869708742333306422580338927547420101701229416155091455280020827959388493612392942632569843564417599478403135687410631102718445030872554331677750526926485955153958029745229910392786569951049268711823648322313928934487466558803971958960469983830222371921652128238612010075048066187976503781259748248506321539379875319482531759167048323562283772087317587173115807070537646559014350011919613193615245250381629219630923259437120588800147691357966840953245440486402419026221916037700345620316124768468120253247976271087496336211411772847911423718700626205294862960363556286463248831036719462700573874831156120827086062572678414339 = true := by
  decide +kernel

theorem estSeg15 : segCheck 2094847 2396687 155460 176057 413 238
    90886849746915268671268941412447578673011141367408167530806013158782228796870009521359801010340049267598960379716901550400605683127693542694874404514495429458621538036683014589372433056730046901443926765518486714145185412126876497451002649120254523811175090092772811538564511318463955435901518043394726587486965907099503965161957823722922330769628152158247176226788331256922807857934180579690580813190476331079320000277168356336986912904648515706437066315219524775412098704369555035692928725421036203657010640686292477157503644929795941684303407942329699038125375040875943514332641412384186201961287075013758636775946791562852142628534418805542283746701899631328448900740892646092323387046084248756507530061674446880734750783085646075420236437730010331685529817721730409318174942805346241985379608064377533826958603181566022008134984255237557748950477767090672423210364247964762977344964682392692059713336879559449248838041992397233351658230381706314465866060270477748145163017553525139591067451794610253619123049987436532258122131848113934654272828523601776491055238870657965375569955947524784834470363694492329808727289693851679760801004088151811187235550552083590698374427276044100489027558577432457524386407625918954148416779782398341179876519151853706845775696703498472058269803782293024214372195370785009009681387441565267455603322819948757983464248902855443468365385348813187151140864713832104642634497251291767855494750624175792957769860648466606332259071386332601652414379225305048213218071272789171495797191163458480474762366306516778010931606357084105801717892290504434495979973292536156844702580620997703460966756670238894476559764949902648650613195842136515023544895948640814002319651239933742637945580259323992869765471397147229066542972013128394946444190528698185869723148762571488318080201483010924049675714540641105105950904374881736782643990
    614172600517682363318717148917211122467049149531427469531835728078121977010408768352340539954079660532185943384605108876937220360818778995119434812490999190896422686365566145051986569325035742116622198218491924987086719355259047743409355731840434463116828718820203136500928496186196613176548897809725542041244712002312810567274662227341882090891104930082786011799845678842329441790444587126088171377327648973109442696454677923061613551756679584952288437446312487595938461864102597246750293321923040132200034882149482886811194718626821927933473262530502763314478781459814838739987198247608328119029265167059506020811418159889994700475558212214300842695216589393954657618397929237743139529763671279444129179363558102201112368065871960726828557975669943341201197558695207141910406679137334436738229103630111267084205883296422503878049815822550394910692173745762307786938861409890670668270673636827547190223920760999081636663654886863950229752963504557256305271825862960416409874353421835109020152743514371202570955201133516847904634662725802881034412043495711794933166311138849376914706873123179877322881165262960141595984236833298823259504662923384512053471044659627340581881239318804001492132370674476433239901156630072248458270455820645884223962126196069968909167677035431949795617565596959546810649619419218004811613687664638568672178119225540905451955885154311101377710956097463098090156549314064166249327377895978108219494299153675831791209618779293454501027491373445688395125097569716426878304810322787784596557119422283198805321320176949013724286596250862386318924409565381669533767915569518582580069705381452638766399203845360184345894233926442696321264928035287476503970581230927616523390522588826351720397621356720170006567087883931004072896910674424307716213311835980395653598774266515349622290903562909800979572125754162535088493655927679971285124541812969520021464352819202341273229833268786383335184677630812882733524117221507652806976511933855093064207551830643218880189144821980671982751332543952426513199157082610374325497550410440263390858545927255286947336229455910054908248906096795886630137455087994649620593767903790356 = true := by
  decide +kernel

theorem estSeg16 : segCheck 2396687 2566909 176057 187603 131 521
    3547840683317682949326122028211626486384826525699613868221309628531809825650958520387249808298443552073913768561279975997086486968833817155471565052948384178957171954920037783073081949914979135648600892368451482079131281584905420998391484109229256440347907514968693470095374938222318584219215486395394133142227816043335296122229050624558026430321422282786925422775256317925450886369030149923965692448026425515751664960287770370923989996378783597700848821517320155527578937288393069621829360150961415208495000147159124938914655940464834270470228323139821858798926061880730395165481305246
    82077515988788405755531647006673278687610002209055978425692115191066304217094027058609737687633048679795162554468320934502524761110608284900972913596171686334329326226112566399125084112943283027875766112196083572061854407310102732967694429593804591567985623465046479198974440520046780249803818078506125684358138195408615788529372885111134658103117977083785237752221252828653926489092883933718430398820620115425274469448282267157010676428005157809139765524572343341735037688809791832891846739943453123941929521314090330459269764792841105546282153354473120918161518440800672526733913383572554473767298566480025107234524268642029078048684349303134903687071235097363068610461395310981545540072083450920386633968726175610869382626751951781777040502860818666367875418571420438302434942387140428434671143853553299588082225332026848522713962658004613854142196143941991039122208395907061953598707791298385527757788711012932774002470973812585512682562007193813753346809174782050434239833476331879129235933807571114419018340345689025874389216215000471331487427134125679151421006758232718729244905098197971931553159348396138728801052111019250850607301954202941792453524258882477216221305668530477883519375118392162956219572737976965923570082369089054955647306443789311740540139888895717125280544611256426628591383005931242737802368410114891266203770235527013111204466918344186811937269354398658018257772578150389489889701143522120363776165757884509837289145630161948377910716679917120088385194028151327300293006758672745190345719371167133458993986652532982300174856893367143811396936393957446186451486462702411548309123295375960653772067331667588733825511431567112322565984605239923413835401467930460530989737728530339294723874705820611483003625156929101627086433485602192719071354761692133998964309341000639359131558262909723535658548024124771503560959886113574607981910059710600765374267337982981698382046779233069656359771261690402943131459086671804883233973323686169638755927871303497426798895048717723386651137888222663923499851234335105481108107005452219757077445621829489855191131691907647452607877865856727975774473461334546614586061498714790772782958411958019321687545166182998579417068111549474105536302946363439171999149614911498812313386462934729527831955919861395889717464271814390814859919672262912845128409429328238495552260558659390488559731684675296119734837327163480258707249296708549685206965624822134719306413340389878244036795749522846306675296894647458424288338165718923856289822114267795268872001051308728562104823746067186709813851592832358880893223764561624641975066694546875859848012202256256689010729780054828373921280228574673055783553910871422524939558042363384638656508026085896850269720722348932764311417940064541112634741485870087225967346140235146511771489537741878095440320725288270722972840083544069238742715446916176350545299797478394035056711082251833036482624579274523068311915313709151136060273053664562670858784710341813559264900911221486803971933869409499217188175312375424691109266060185835021792348613731674131613293510596819060733249228591813261530733268063277685317594940089332450801772971496260616532058208678049763358086344502036961686266685515926109165473887560269931712561886167984764854325075066796451248285576676994537917747613435786545539120999591096732697209414467328075826395526367085088552221822538525494543198297535790462940976707339994306838281816431805767264938494218855047535405142652406503328634359024610059389820487625423185646287517094818452487785556322901896783742847333740483088405473925712859713101524531545311240629273765772207836560247914865533669570908503945921232888430681839293524583078763334474256270375724108598371075057172974539366938586475952175343883583774063856837383219233826626362087695181717429711043766341237975603450866114922100886204205721919634110074737429207176526534147822765945421456448679483693360041108697455796060196118095211876677572403977310050611036845861161971373771389790850969597397463239486717271206014230637962468826955919698430653981906102172865308037185338760779727896847738069533243999728478827412595841127355208181874642215155102275203489079677033390473329953148500556616112616621876870902168236209471689430021149989282408687118153322903788463853199163752053248048447839004495287006759200552307328160990701674439800465747327361341648691218724298747082759128012260571812381260801846178633319792119360353142353346938180866676309436045262991577740579311228215265414669609297899133890470485075320666348564980016907256644752331733308116803845049895352768868146692195112761073383326580499452333221314718481604721672566175184664004035114827453538543914391817364932571205844543572586126753121631431813159826949620 = true := by
  decide +kernel

theorem estSeg17 : segCheck 2566909 2823811 187603 205015 238 412
    1992582485132273082001349271348684419744120605177175949321847847438439946441143273740698627669087813910367875114347252394937313927978731288774970842136601557380751163673978475169282110682987364862483080131270907184070753088054515374949966986208692936843857249837848187186240702850314701378813152360386004681278592182657931172807308478352472517197366466721604818764294114027771358147922223171051512537744985831210375827643493358260394131453259092607361177464321066379123138289021258698819582746073916701349733086596719637293671661182045509701092543156211037498407538815929666049610852780626124853687807184128093060275596492275831108605717341803364813748295736031767071374915035245335220775193484304615338662319143475634638942537935664842460626151708578678247777192473756262144278132094214555200237749168882719034076067639427971552214310347700335416500694435932214437527923509163432043582723443308319085988022400949436006890205393015000195974748593082252107895553694873380093847281016569340341486496060480783278128443872407486526385010183246807330049410621285696804128134
    181340399062342186244106657491683996495011709887638758202543544004847340313320373788975329094662883741019821817025664793062579183990283745540371783503995342024656106749546459693365428876725548164643504425963343027782376493957465923018752947598252902070325297997816996622702729620856821990339530669181108165510122954027306308429335588115231253215362828471374753055391514438323536516319066612864233445683641609289751662735709705745828432694379896431679762692659273098427073709517312897307312147365492832603733274476288922718885034355824316196313027748830271295308311232404507713596292556982366973882760061512430641339732534918788189761383860525941598623524969454615074725767964609107827578719880207313246702001326141495462071072036081004791998334216314251318971526429392904954950642914946718376809854262561392763953903450012727702026598085531475932504915480178664217816696035252774197955298070609980993282982634012388652455803779337760988770875515214205825165473425882255443897793991380442237364067078172669414424545126684665614977879388466316058506382320932856455966152315660671682018333103775298888928137508311695762684059399759999193476106927458184948266657995304962807046041704860157462041230939155708611245532697839635392755139023054591173308799021127538457721490840206747515484430259615406495818590707396991328941260554487298697065429177496638049886127365528382151781293874158382007732402142474418022293915751815344770708936084834362805207781823985653657735979165972644295455101938811040255561348444263779252132772126611972466497191168559402169995281963396521161327774351053344122852119349892343552361548159373574080432990163570177835156318924054273833151999499465576486282259711038222405588939198235089324392666617803080357813852593459413999258783253104900701074642746834435619470052428325279133063166675946378568629308462759037953575707819222108189300001439414054410776573832931092661122896355345288147755387163001213452624885249766078074695053250944673286392263901005545728580622271670208713229366385947239821117728035234325910765559626718882020075654654997905528742932720283342824648109226750666295402999558036778839132491482209767832747350456610916750518729001886068917032277139305075936044160847219693492282980241607800678859461650805381375070031419135413410542973850498485518916344778487648705822547408282464435188213338718281842759157339832285633598072588966312781245061598696518959858805032997099322025097761556476256295801549600768120031230920677599956364208099067766053536770431593582059369805616794955087029284109109463498056431762262449429517175285340432812233402261574235796921263454299707864433585669136210594049365616770445533304147456190735672540024707821621839731094224031230593697322142799669523759420489437837399002747569627343950363773386330527986328782785483904283648457350411599907562438887211417624959930460337975095002638621143491203190475880707347894564324464738286750840051774555509615670625157629695022044712704726754885426889642318067796193647209546708671321181764886572969306768632221432528360972634216357499708072402004436345509594227897746637629905147228050829489271534810707713377025518892224961094936176446960919322871122609261251181377187736222210628036594390997011886802869736561019530023262512724562080449301833418545959062468079518165196299599487525120731152261326787655016357454603705187825818997322568450939531830900311139103494981107624277564487682389304843737540942313835609442965666295801977263071701295517974840907102769625142117006640640622524131289848796402419100315093836302152223924301396026834459587631696293302824256210801806624840676844257308006464162247703780965378777576324903389806738365387284811203554969613305789037122314807660156066621671243487510796 = true := by
  decide +kernel

theorem estSeg18 : segCheck 2823811 3090959 205015 222898 274 378
    17084076615852443629181645117519884863720471577024753522828643264398663974662372936631418118308182567311949795678940619312308642508145719346215886469485873357130244545311528463425788656263615305318926670328749982811862666528219947349757227838884328798432985613147639901835562190183328833590335938703758365446964019756807401317831512312138600262169688116763286011879337137450304904750470634981504189332315423213724943965736050440833863678274367115500537450888337433632070938451190530463332166311248483225480043146938569819450575229011501485757334043831994261498403905009896005110272448637621818942982236646502229472132397083018069502436590739598500149167767235875855079733212426926563589916886013909924666849570759146016621435544638806231072871792127044526973228286004745672837545325655173133400567613959867066037350991626298826592124880157641312551038245230409365679346199495950452726498680543626888424017973549650372123067879767465508009276867901357057903380350096640961300386742995805293447284156859183094917834192862149583909661404912803326780361266791819520422105928019039800050771774596087364145295510254283238734908111749297800851977286018464428100022563914307696403425559052201620350995188157802472216163614076604850656543311
    11921186269791180413954702197805494363645930996459285646464565275406227069208350090940796480759514715387055267145198121105756783195575779737395283189747217074442645504156409492188539567699323260306361391132403212642179922795503809234017057106309899297021746145609533181891308695606863851545922775455961352708568794520369550171652915414581196428536118030829382483134025679864220827482354623982589495037896589285065469960181786742545660472158048311351874287298723844172620744089168938968971882889253129195872769196520567737334371449455681373393043387600440653882061249895406133400191365256510928086960959504738181489273465438157067702124420469445212701277044073499836568204574860786770327426604897754215650138124941713663453375537112505706148069685310653089471562471037783453095110062300122415761304691982539808767423934074514797245318881891813898472276120119222961209319333407370904363695974132471404792404338652138869017108026549175243930204202582932893263386764888872750129907338066214783230383912326155849546860729088648557107799727480612735776455720655617388949592454009067411891779777370387263490092835310974219095585170896540104088072616843855164802911404092602590351353924028235341888851918572351789361744926316895001448932527254886852706979387268352238317006367160249056432058526316116016634171676689919080794913305369247771494865786187853080777733058655227512204838395085477643189691024668817372748782572513873069660215427471452729680513782827972650189780967241040299173505005976569091449255297123800040684078714534604080407408334887350518703036220132330687691707860701490695574927573882503773792595250813274341261579904779914094730032634940142967292218797704763854425704360488082357012189686435418717179946087180041962753494906537383256119668538983737855532171257847531907044538189496864841494372069005259030869013325882169567425927325728065994308004762847160956061184782699850859971717327218954468566171811528174280407721215478998556052221680123975865914435818743267006955254003231641312889135171956058030712666520294747136327232879282192299025908578949812503824486952515107443581747597160970810679977289123258695867312744115464725201581182055303799743319638403589245061142962604648258972274185658037392067717182086763070981546560298231849610983252178266850594235619703737232940852718005757227477626900405325206894037520780880231641363498574141789531482053632174176307113689603851892076150474094963833740420625207214708878588289456668819495456795230821382258126447771829099166520154601060505456456059166929800888183500814392058736073271065962695155364182375930749278719231348314213213416582571515657407910522285243812718359767559686656476365592537737509672312914628871700469230359666456874343467200805001319268072367027488319896282200261926937812413228124325572164867479614740330363739626793247859186538773728681545652056922513965839746403184735730994817381230968061923232584214813208298640520451281261676948263010267360013679520266972266480641889044781652463788448412167342434819969516385720045587439249018804710158118460931105386259698583082498186720863023677360950832853823853281507237358332484480553499464251976201547734909896157777967579080380843890747300360421271067793651578717311986205682771200928816236041255969896360777830945596995650601881423494349725611753158385627113804336632536296157959004920048484558192072555790997753027661689749022893839781871555373805983911313903884346262696 = true := by
  decide +kernel

end NumPrime
