import Verif.Proofs.EstCheck

/-! # Certificates for the floating point estimates, part 2

Generated: the last two arguments of `segCheck` hold the block lengths. -/

namespace NumPrime

theorem estSeg5 : segCheck 322523 414361 27809 34942 343 310
    3103845922516088947677031693346381632749274407068732844916985583106322596255954140795370383045775481921568460625096441456848759568679275717050996026456388587761187581449759035269571410275096616331999141410159429331410833658914862829937155710487844254060708908902471928224719847511931161789272942749236976173828468319379226919673405759083657494389422447375854520214986924154037508316187903845919117863814592448425276862564613337204733350064631393941351779948915544696092752598009266135876485452068634882346180762105644866377123045815872982431682586327865139453830125993561798358486979525152925581067456483941404733303167085813665281411598055776178508138563144772063122930637966894514844753965396437010234339248029946898296521650095681289810077832583635543303846848612945746977883819006363332467355564039071529733666066848794157317138825052788692362506679070506141450819493173145047687837070070934641658981594229905969071567805878795722259538146529197697243873606765851734855877403252552885544143017100752728025924932979831575911534938252531717646401211584146490309697407210112463057636837217074063168227628898862825090706259539797285105278207221638050446625464594732325658795409182462951889690608270673771901336164693806229494555710126808947581840534267212618836291368530748308286756305415369335330686102972596300360987748123558140364658557504771466173973289426772297671632545912349610886795015425758182015252729903519573252258794676494873365747988058928936992906630347513827919833307181619172721203763134652525746860020373934747593691841954050
    9486541360807433408914846759607383694055101897337167541319173747987166428596128344116556961526252401256314878499398503439466618188588839717210518221807065032438500280137573184390386408125090191178275221691145534542435352950710780849055802399900363485364457938340669551269189154078583767452591324732997585860719026983649915523070029839118402918393027374079914847664716863478899692203402620564210073984839722459292414941338244425914918177386339218261889827820123897926129574407542612193516434173803076155977576137089467092843828048877542089222288740247143502963290238880818658228143134376053592097226863954770217307933160961091908811440137393774882963952267825629725450288772991336451823304120242295224773259344028204331379500366378787310625177954942090760953889282399661342165771917455938539012117668326272123375556941025943096651955793262911753601595102944867473913613266446833365408787146861704243796001710099581319075450320424577939794416372073789705536492966954246929234310952207408584724915415877880566829163498634025553215324307330466329604110177180101486930927103661218253196101185669664591594900176871596935540944795077511132909873454829049580685980814012758177387096003892365279231234024933222966279034083108423235645033591216637446990613006985224785923641472997218805347989150125109931999882730079319518542044616639359614394139638414941006456182044821198377823688102376245890919071474438808413820998958266715334637421435513417007955712091411099430803033857152490557276596133480938071817055408334199194274065489355998930742904033474920283965653067324316720449845470398727583776009302358650607947377690510118897177478170795996216938249692412182147742873365119857496476464759381518775753576937844480445375852641021082226127436845352748156786420127454579567175939158981403858795698074114707114455134889508172330908410092391998215926627597965385010696080145823483619591523825284838582861377321820635618874323330027930324120650537621644197337929032621598692113449748393389857037321830182619682737740999038301281801014577952437841919386731244009403918888190930976905739576844864611852807245425815210758602801025133414451910702513961092869984448748995145897725189006722038768559923937175293081584368840407414841083742108825613548788124801387315119077972086294542234702212583676511973512435383922079619579971307308889454860495122714788159130671688031683791915854566921039425165388999586650777687409904372951955468955907271842693764734946538020683487985145983487677319399146148104874845331809303802279652883375462292335842349000332260229562076852443837326787060674281543248265927598809155119113371547955489650471548375474215464814846231178504931346281956682944702580109958600031750991655384485380874080497699754198419111607919586820479782757394862562605099718148394996799491707297200144752 = true := by
  decide +kernel

theorem estSeg6 : segCheck 414361 511863 34942 42434 336 316
    47297495887632465586399377401737306915197381459155384221950367227672267317386411073203275565025847681632561245702086522684793573994222845336266718978211554514061219470116503788383993886668240768227638588809558476689036802252754645653826339576562037719588051256075129801047333968515719497158641381936254004214064482475223242353057346057714858071393244886775624502384196864327036657212856456108652051187839010344638108288327088533358209269579019687168277480284921433659467855556924288564010600946128509248015443726859038658693371409469251687626194275851719458981922664449622396909227533743860864174407217185910133959400572439508037950918161052978299085526101122728828669327346577396975224634951743441764190587685981586975404589977289733643391703079327893936721087405890523673939586998332547253548371293399063693747823968889469970772246083322080156070642978205800892231607592759738159747189966995093274902396070399027735396395457480035353444525418201512281834563760609115386642838946246133968503636078623862129858717295400934055514501471802249306887241144177282574597868597861417575404936892266059971970115724946359294295602615200438548147083885100764560198439136876328394635777053860959522339764678262288348950974148024769956412694737510847684898038489622699861391953689083745457830361118601470162921718154944531306610389259226117653408645867171704234924536218938715624116786798645344857930178414856641613370601423123281018109004357488686829799571408389538426377821256962245168721242191239794131819525400374608434
    74342125713862230804122998586370227957516233449461187956168750763229789120945968476833831585714618418629943467615752374167473759917317897698265659876540331278028162649705956229731037196318804839873491853967960351511149369038966644663745122818533556291614622286900917574482336726679561177561688003742398343300684759069168067414864522945455066247378151982916668537689191342110106073737655478933236402933466503356579157102743789132544490249772192967472099795669712065157867705139403321804934577360215800978915462030179936927997677930075779728504816619740832574323945065856424588504962661005771335331053160510917403751609527174914806486753197403634155385609310186998558560265767993858654911417966233298163062877875665241534057594254530337737211348239901755596761087868109701711921831336632153940456093222948198889970288992183204340102761595419551833457513696504233429780324143317916070891744663955838586748957588956643561312414711573805897121069482271309290556282501777039594482623861238507371192187438361950165879684376683445513669021185186851727100991446706815958496501281103109226363109585103105899615446109183963760685973732229272565959322104387660867240742600695724352059321210041130276293794556251338641894773056719517721092181999631275543681565125533617705683983168005272189676892728623466814136825286461107144174359093482777462758631366803730481669970486858189748747507644852852057484084533710317913673064053577962561806816239599891941631554061195097932918417266765350806480228943840986662215014108695466666268604900868815436571190237671378792320119331290580276385514300599555209585584550274511341294150002692854559239093367132519086851289733103341630922112353052218128103989417135701455902391416914381523455794859007086100966816763134302905485622953373739559254285744967311043146184140481930932186691247529215677615595853676802253571385568566218922138355185290944132154143480892350213875260736879435744237613238566557722053803712027824608093563903351743853719743993881722755662308813717310943420267368662073121654378001944779919772689242765525266112544645371385717336893880491522555495651765695136630744392289226139436474907167700850887181129312987281113998723190798922589417325335295561882980992993117711100052564981053882752731447446883314345911464058546217322424370714599101059283907497657741943559367637165921275686573740452067416532493466037230034682872879733876220798978901831487636193002674409425069876860964693391192777556994720093543290479682860549598306451072329420291514683189447972752059508907806739258822612339767915694126602887053589013356022595282834119384900126134054580867893457699208607512724522744454675238973608740959701530993836025049892371460477171486581079041691810462032333530882356565776633007853062477803031398287801823252032181175602423162424054625255255821970589112439928628875369370996989380972138063367307390 = true := by
  decide +kernel

theorem estSeg7 : segCheck 511863 631453 42434 51438 406 246
    293162600935568611867856156228080312025404151420875383819372702139999099599576742423196879713026169859528930006260650855518821391277365654158811042409053190393566674933004418885401748083831896973573928128121094706734268384323060585030199108442167646727050228103504537660551364928823679750995776593396377947737371433941716074884583396345976712774474060034728367956914652816085250444768776897327082076220722310051717630991236266939745986791856912581612864104345667931252100927668974662362510414888418063864275610423342579992676232018514633780199698335999046008377876733216697854890969190077051293194485643871382968429938018467873547296815788170490298160320044841448960313362932959403524177849514881876229463502938524217008561034868924101355191063719447799836115241375460414996111448473544891573312823763276827192464827105170571221488964974722124333465767261711944110937667423478418060691125154841343305767421326730197495383941666591049339781940026706065095541667439679179578186851803626592359906475277959172846090447597108485679600323762067238082084889611970217897606405992007039315495347483487661362965980826784937477276200611074008220065479517928271668756579161894412040836022717445807722952694791298622711315386151612472914011588608481048106724398948319200212874944423444372802163012304850803423964594472047940620652760586477472796369910228382725242439390910430770034760697946391733647471796250417262754168449679616761736248092901603118743051491243934019731684191409255058986693908744849920020143370510359956655272541933780769429756401866094203753552600468687937310821795685559219100875358578763012301733078219128393614166548169521061040430794986789722008646925685355007928135729918409868839315611691589837149624727681339239151720497468165335610149746093300953872929686067260545971387814948841781435947025173619966409205088573
    490361011518152212563372977551383598083437298541725791107971922677403386612208959294302875798486015107482527292349864552516257189648026324951489092989547852520239966635814187926348508982695365251850245440228323938749705654694529788319227598950150739227393168517925674108175717201549185389274198364415993339039851387246764058332582630966205292958582467180473521571607379641922116180987646617193264756402030210585783250634357173390392350497740307241120815347509573807608804375853497769899166839246704913857638625062162289190513781581232493681484795309832922853500204846813752469150813438780424674372040726089768219371394174909586384664241798680756379692768411634380042364811103910358672098820956624704765618876124883791941607531602507927354030663912564220285865181205723783694783169057464969445024182911709584463026911604625114695130318650480699249825398248695845378978994727242649907487299860707468750804654153174780307136135150518825699313172576282701502230323361329199833154593392272608305502036110488858037462134567418853315176373121016197842708228098845632197821225478660008042056751039784474520771472683307497075250830128446898295309382533803533456893047726001501563261268681997968561789920885312095422691183946338262381251609516330594968873645390492933901064668187007034397860327973719178726796651264040710925261608897440734438198253125212000496443440376697611078240270690943760802144656486153499538935778399711164473116634803248903350168517923857717539212480352708313682762773703785869886718265567431637324224783950229070401906272982112336556995322845715058006501306208723826378902884182368471204817915971062100256721492041963855292535495554821720342936977691023019807889232205996182911440070246324725985907150224876743270568472341207883797687005953674789755103049813253958382891226083735265126674343815593225982760213102865266572272387649095899555601582353523104329936135720078373681502935489878175864690698038255174687892772540403874956639156713872574054781794735420266214031413624188765182480903707305049332032490564475860094480068449962846610154397316134890148440571750508235250543204420074080388661536920697430973410458074341402164556760037210325433894397547117534541190139374127384317329760086654980 = true := by
  decide +kernel

theorem estSeg8 : segCheck 631453 751567 51438 60353 396 256
    179724994422511002189519765302451179535013951554869483751535055687895902955113626113539098489176759003023122504537633304134096451803094719407520029699497637344146135603410690928968422717946188957923904291119639091359252126221430220646520007079166356362811125656729435181771848682997887824899926947258148451911731279165166298656402303086519652110200341245529874029517855165082871651442796804656000539631291532643989792661363854410127224100553946026908640874537288284854637577112699919855329995463842506617700609810364461984323413476306101687289791020600902986373569774158363931491596173696900427351413576757638118073584556498706207208251672949570318607738528532412801857656631999506471028419879436920197561041488196049909963598560594354794513621073092985726668163039558519904991136446940815581697996876963148501222732089646597394573455882310348963832598990870620529454873636780536822449357154909655759958523324212584440722220691544946828425275376695997718984600396329477525620230522193261281374525186765439693888025101500654714478368257096510054480240843909820428192481804548286798122365447832421938614249396460498855718194053294440517771909510824853531344975669010414727229044036199746745296831697114099849908837435788683896562252325055507158043429399343013095068749946173733677891347214808037612744367231061908308371612015091359739212023563191365733483476375836142782957870197343426276823567435631870023402813416325914572183397138902137967479770194201259285743932561129292328591695885888448638950300114656857021337950760780453718118232638895828154801887845298266183795241604938795222124125749047777131061285385183664446969791291229606733618902369759296145440470853534864383808565559895627762962381005598300025380745231792624504719534270459144932182870093670168421851047922076647689
    721415562682164533436397570255880449142158810255626853060476242869540807621911183390092618645380119129199010507644370585307763309048959630497193270333380122376718487042739632219286087712341993320200200323474727376524628069598968045073104905399629107291053408004958556633391253017329593276469570614211055182230221783379708740685575376759303619391725108503533623395209982824275247771801262510130225519946095732039550589832387246798097247046450811585334558918251647201682457165510112587466980663589796017265424678539413870431274759210892526263224460889319243305533192930882083090458377561533429175542896686158393716397112959734744723210063444276439122188405318340729160549429891714466460850269022764952643910397140620836726786063875472361246972273743029733930341437330151525072138140810005920247240135568719299051693288000353939935304590043682297604713523175549188818206281842920552075347293236668999215320635651699040459908756853533093493303566582494614597731432206748539919849220116891971629556163829551048820300890141357251442990509422441391476886980741843716799125153851543223348916522101717931029358173467413790158951478324172098050959860035054540363315775304578316136457592149833483348474989301296653428739285640300700263690595203439136304177863900843076994671275802852959712078437461242578924254492944783978710853753969736525913443738654743398329340912676386005919742409294085563935078191972708510972934333476282933277655049532651170831796428912204172768189329977183207078001178684916325341418750255726535119472991062611566110226206388568719299435125667970906916736440238837572897868644660888953087521011325792561857444283866999855504452026071067585784679433134779227144695668760820338938309971487332692742535810911192921160702063951026449851094324056840777343868543197466919789093294538758305454944573906588735250079707411428997386055172667788352867738008206834226313500925464075303478763168091523907218126488755701950465113709578547383621359094034589445159757017979013993209646694539805506516957739775074077622702080402414720072136487468408581857708823042893867769295768321847915295520452302080186667493326894854107196676173371231748120492223685746787154241509903239231215373508830345190822833328914495813285736362520272270302179560558989283309710062104327023818267600070620478722397737774219678 = true := by
  decide +kernel

theorem estSeg9 : segCheck 751567 914369 60353 72318 399 253
    22583714396931649106003504921190249533761927142375053503703588304963354309015248121550674135811260654791977715250214123642199396536505079794672003737726824685425568647881252084536826397373572763854481565756836003358353828088910187859773394050664392959361708379701108220537071684995625458968305979704042267152163918158109500500444044259156834294126254040160030020830009434768000829309592454325863386654437055859100589979363450721372203094869374288305372073770694927681427048651818459884124963005424347373512076139882727347573082841478776533033234752515395223651538124832050420941942531009112749000950364235558276439118797737174436472723285595334714060097118789088313948184798319739821021800142624296978532680637851362758270006495304734610536349625629705670849669801775037231177448355621669562392447013681148413106727846541866940888814303326797329685985647642807578136989114032987368622787113718572393925990218758625979729243371670362166414218737419197943254505120660484893149663223771618445639277784547446106803778264316590631207934868576144609900476134753973747454672343895034190741682413122695555606612875069323025355267735595703259926135752830097885156011751004913107829352593230260016652170439864388927891096333342580860844744294776331518701553055382860370895054529643619804265817089170511016878656406660102723021871005993950853221930938722034307263568326551710684762964139575085160006499192090490330442256928861191168563133226996389525449890088818622624506634846680804844824786147713090590280315619882161958377556208750434258393815373801249715935546038726441143715167027855410080304006191017184333036326188223489862827903754304201080823202120558973090343214309680430318116492322196081695827362533159429305824681492822483936340058624463467596540297717106928481920592773175418919332100130013387
    1221542013198042166657511575930112392834891419014064748093552553154630922156932538155504164856266745207079600631609768544447100477330606819208589843519285161557261221645760458563918124744796635885869648215260412227228210325355363370969621704802120592875340483369221343527227778571680706618365630516254216394441940494278044800324911141436367051206289626543506891796434008782388958649320003368513963095631906720555581478467517345542420990119033329308348677883538313836503297891700342180320881229874946807650958635610635540720106129607556239574834613008892604477694406042447617237652856360136033973328083760167068599526904851566083581968759298685463542925463220272242721887810763079087762493390424683991167252008164544173207975445345786217633223718830759963435087137944398479361223179649154043348969275107424462761483686769480303580510521682315838951063187503718183993277679663494789771919808044182924533624961418552112153478444135313372224715932033164833421578367959255248864775180149395149072089234447006817047612729815151398831929087017583739871768914715818244567196096920241257259696857727703693755300247685558909369765945169925982306838101891140354616418472685593673573391139586922289286944100781062081041244885014394030857084041577998293069496037514783630012593863147179241440922080055375324102128035578539146274849554819955971362553127519284451181972355620874468855869052976875458800446049139622088850409389035710774995464547533295490510247726130735896932336612166146082813731873697573880415402035041975493722121369743130005445895534697417914293112443462281522869156009893751301598979238459129645338921545114329034012001127144901652377428772073781276918589562564395937034259432869079812905222104318321055780815091517229174487476717994848636849460390491883372162370658715525963354075926845914060210075987348852102657892531451982293405875942859349007777018995421372840070629850483320699684826072575302024285943078367789955014889695598595014016722125636272556219734705431617276893903300734679260188624478677327973674222620363674887064329273387549502361251392960852343565138425878383832626147979105070344861238173766759054357091499919113601653092408094908326576575215950464166369737530491355463158582236036575047313992600177371343439557539444667755751562134135252479574999382 = true := by
  decide +kernel

end NumPrime
