import Mathlib.Data.Nat.Notation

/-! # The primes below 2^16 with the order of the group generated by 2, 7, 61

Generated: every prime from 11 to 65521 except 61, in descending order, with the exponent of the subgroup of the residues
generated by 2, 7 and 61. The list is checked in `Verif/Proofs/Jaeschke.lean`. -/

namespace NumPrime

def orders0 : List (ℕ × ℕ) := [(65521, 65520), (65519, 32759), (65497, 65496), (65479, 65478), (65449, 65448), (65447, 65446), (65437, 65436),
  (65423, 65422), (65419, 65418), (65413, 21804), (65407, 32703), (65393, 65392), (65381, 65380), (65371, 65370),
  (65357, 65356), (65353, 32676), (65327, 32663), (65323, 65322), (65309, 65308), (65293, 65292), (65287, 65286),
  (65269, 65268), (65267, 65266), (65257, 65256), (65239, 65238), (65213, 65212), (65203, 65202), (65183, 65182),
  (65179, 65178), (65173, 65172), (65171, 65170), (65167, 65166), (65147, 65146), (65141, 65140), (65129, 32564),
  (65123, 65122), (65119, 65118), (65111, 65110), (65101, 65100), (65099, 65098), (65089, 65088), (65071, 32535),
  (65063, 65062), (65053, 65052), (65033, 65032), (65029, 65028), (65027, 65026), (65011, 65010), (65003, 65002),
  (64997, 64996), (64969, 32484), (64951, 32475), (64937, 64936), (64927, 64926), (64921, 64920), (64919, 64918),
  (64901, 64900), (64891, 21630), (64879, 32439), (64877, 64876), (64871, 64870), (64853, 64852), (64849, 64848),
  (64817, 64816), (64811, 64810), (64793, 64792), (64783, 32391), (64781, 64780), (64763, 64762), (64747, 64746),
  (64717, 64716), (64709, 64708), (64693, 64692), (64679, 32339), (64667, 64666), (64663, 64662), (64661, 64660),
  (64633, 32316), (64627, 64626), (64621, 64620), (64613, 64612), (64609, 64608), (64601, 64600), (64591, 64590),
  (64579, 64578), (64577, 32288), (64567, 64566), (64553, 64552), (64513, 32256), (64499, 64498), (64489, 64488),
  (64483, 64482), (64453, 64452), (64451, 64450), (64439, 64438), (64433, 64432), (64403, 64402), (64399, 64398),
  (64381, 64380), (64373, 64372), (64333, 64332), (64327, 64326), (64319, 32159), (64303, 64302), (64301, 64300),
  (64283, 64282), (64279, 32139), (64271, 64270), (64237, 64236), (64231, 64230), (64223, 64222), (64217, 64216),
  (64189, 64188), (64187, 64186), (64171, 64170), (64157, 64156), (64153, 64152), (64151, 64150), (64123, 64122),
  (64109, 64108), (64091, 64090), (64081, 64080), (64067, 64066), (64063, 32031), (64037, 64036), (64033, 64032),
  (64019, 64018), (64013, 64012), (64007, 64006), (63997, 63996), (63977, 31988), (63949, 63948), (63929, 63928),
  (63913, 63912), (63907, 63906), (63901, 63900), (63863, 63862), (63857, 63856), (63853, 63852), (63841, 63840),
  (63839, 63838), (63823, 63822), (63809, 31904), (63803, 63802), (63799, 63798), (63793, 31896), (63781, 63780),
  (63773, 63772), (63761, 63760), (63743, 63742), (63737, 63736), (63727, 63726), (63719, 63718), (63709, 63708),
  (63703, 31851), (63697, 31848), (63691, 63690), (63689, 63688), (63671, 31835), (63667, 63666), (63659, 63658),
  (63649, 63648), (63647, 63646), (63629, 63628), (63617, 63616), (63611, 63610), (63607, 31803), (63601, 63600),
  (63599, 63598), (63589, 63588), (63587, 63586), (63577, 63576), (63559, 31779), (63541, 63540), (63533, 63532),
  (63527, 63526), (63521, 63520), (63499, 63498), (63493, 63492), (63487, 63486), (63473, 63472), (63467, 63466),
  (63463, 63462), (63443, 63442), (63439, 31719), (63421, 63420), (63419, 63418), (63409, 63408), (63397, 63396),
  (63391, 31695), (63389, 63388), (63377, 63376), (63367, 31683), (63361, 63360), (63353, 63352), (63347, 63346),
  (63337, 31668), (63331, 63330), (63317, 63316), (63313, 63312), (63311, 63310), (63299, 63298), (63281, 63280),
  (63277, 63276), (63247, 63246), (63241, 63240), (63211, 63210), (63199, 31599), (63197, 63196), (63179, 63178),
  (63149, 63148), (63131, 63130), (63127, 63126), (63113, 31556), (63103, 63102), (63097, 63096), (63079, 63078),
  (63073, 63072), (63067, 63066), (63059, 63058), (63031, 63030), (63029, 63028), (62989, 62988), (62987, 62986),
  (62983, 62982), (62981, 62980), (62971, 62970), (62969, 62968), (62939, 62938), (62929, 62928), (62927, 62926),
  (62921, 62920), (62903, 62902), (62897, 62896), (62873, 62872), (62869, 62868), (62861, 12572), (62851, 62850),
  (62827, 62826), (62819, 62818), (62801, 62800), (62791, 62790), (62773, 62772), (62761, 62760), (62753, 62752),
  (62743, 62742), (62731, 62730), (62723, 62722), (62701, 62700), (62687, 62686), (62683, 62682), (62659, 20886),
  (62653, 62652), (62639, 62638), (62633, 31316), (62627, 62626)]
def orders1 : List (ℕ × ℕ) := [(62617, 62616), (62603, 62602), (62597, 62596), (62591, 62590), (62581, 62580), (62563, 62562), (62549, 62548),
  (62539, 62538), (62533, 62532), (62507, 62506), (62501, 62500), (62497, 62496), (62483, 62482), (62477, 62476),
  (62473, 62472), (62467, 62466), (62459, 62458), (62423, 62422), (62417, 62416), (62401, 62400), (62383, 31191),
  (62351, 62350), (62347, 62346), (62327, 31163), (62323, 62322), (62311, 62310), (62303, 31151), (62299, 62298),
  (62297, 31148), (62273, 62272), (62233, 62232), (62219, 62218), (62213, 62212), (62207, 31103), (62201, 62200),
  (62191, 62190), (62189, 62188), (62171, 62170), (62143, 62142), (62141, 62140), (62137, 62136), (62131, 62130),
  (62129, 62128), (62119, 62118), (62099, 62098), (62081, 62080), (62071, 62070), (62057, 31028), (62053, 62052),
  (62047, 62046), (62039, 62038), (62017, 31008), (62011, 62010), (62003, 62002), (61991, 30995), (61987, 61986),
  (61981, 61980), (61979, 61978), (61967, 30983), (61961, 30980), (61949, 61948), (61933, 61932), (61927, 30963),
  (61909, 61908), (61879, 30939), (61871, 61870), (61861, 61860), (61843, 61842), (61837, 61836), (61819, 61818),
  (61813, 61812), (61781, 61780), (61757, 61756), (61751, 61750), (61729, 61728), (61723, 61722), (61717, 61716),
  (61703, 61702), (61687, 30843), (61681, 61680), (61673, 61672), (61667, 61666), (61657, 30828), (61651, 61650),
  (61643, 61642), (61637, 61636), (61631, 61630), (61627, 61626), (61613, 61612), (61609, 7701), (61603, 61602),
  (61583, 61582), (61561, 61560), (61559, 61558), (61553, 15388), (61547, 61546), (61543, 61542), (61519, 61518),
  (61511, 61510), (61507, 61506), (61493, 61492), (61487, 30743), (61483, 61482), (61471, 61470), (61469, 61468),
  (61463, 30731), (61441, 30720), (61417, 61416), (61409, 61408), (61403, 61402), (61381, 61380), (61379, 61378),
  (61363, 61362), (61357, 61356), (61343, 61342), (61339, 61338), (61333, 61332), (61331, 61330), (61297, 61296),
  (61291, 61290), (61283, 61282), (61261, 61260), (61253, 61252), (61231, 61230), (61223, 61222), (61211, 61210),
  (61169, 61168), (61153, 61152), (61151, 61150), (61141, 61140), (61129, 61128), (61121, 30560), (61099, 61098),
  (61091, 61090), (61057, 61056), (61051, 61050), (61043, 61042), (61031, 61030), (61027, 61026), (61007, 61006),
  (61001, 12200), (60961, 60960), (60953, 30476), (60943, 60942), (60937, 60936), (60923, 60922), (60919, 30459),
  (60917, 60916), (60913, 60912), (60901, 60900), (60899, 60898), (60889, 60888), (60887, 60886), (60869, 60868),
  (60859, 20286), (60821, 60820), (60811, 60810), (60793, 60792), (60779, 60778), (60773, 60772), (60763, 60762),
  (60761, 30380), (60757, 60756), (60737, 60736), (60733, 60732), (60727, 60726), (60719, 60718), (60703, 60702),
  (60689, 60688), (60679, 30339), (60661, 60660), (60659, 60658), (60649, 30324), (60647, 30323), (60637, 60636),
  (60631, 60630), (60623, 60622), (60617, 60616), (60611, 60610), (60607, 60606), (60601, 60600), (60589, 60588),
  (60539, 60538), (60527, 30263), (60521, 60520), (60509, 60508), (60497, 60496), (60493, 60492), (60457, 60456),
  (60449, 60448), (60443, 60442), (60427, 20142), (60413, 60412), (60397, 60396), (60383, 60382), (60373, 60372),
  (60353, 60352), (60343, 30171), (60337, 60336), (60331, 60330), (60317, 60316), (60293, 60292), (60289, 60288),
  (60271, 60270), (60259, 60258), (60257, 60256), (60251, 60250), (60223, 60222), (60217, 60216), (60209, 60208),
  (60169, 60168), (60167, 60166), (60161, 60160), (60149, 60148), (60139, 60138), (60133, 60132), (60127, 60126),
  (60107, 60106), (60103, 60102), (60101, 60100), (60091, 60090), (60089, 15022), (60083, 60082), (60077, 60076),
  (60041, 60040), (60037, 60036), (60029, 60028), (60017, 60016), (60013, 60012), (59999, 59998), (59981, 59980),
  (59971, 59970), (59957, 59956), (59951, 29975), (59929, 29964), (59921, 29960), (59887, 59886), (59879, 59878),
  (59863, 29931), (59833, 59832), (59809, 59808), (59797, 59796), (59791, 59790), (59779, 59778), (59771, 59770),
  (59753, 29876), (59747, 59746), (59743, 59742), (59729, 59728), (59723, 59722), (59707, 59706), (59699, 59698),
  (59693, 59692), (59671, 29835), (59669, 59668), (59663, 59662)]
def orders2 : List (ℕ × ℕ) := [(59659, 59658), (59651, 59650), (59629, 59628), (59627, 59626), (59621, 59620), (59617, 59616), (59611, 59610),
  (59581, 19860), (59567, 59566), (59561, 59560), (59557, 59556), (59539, 59538), (59513, 59512), (59509, 19836),
  (59497, 29748), (59473, 59472), (59471, 29735), (59467, 59466), (59453, 59452), (59447, 59446), (59443, 59442),
  (59441, 29720), (59419, 59418), (59417, 29708), (59407, 59406), (59399, 59398), (59393, 59392), (59387, 59386),
  (59377, 59376), (59369, 29684), (59359, 59358), (59357, 59356), (59351, 59350), (59341, 59340), (59333, 59332),
  (59281, 59280), (59273, 29636), (59263, 59262), (59243, 59242), (59239, 59238), (59233, 59232), (59221, 59220),
  (59219, 59218), (59209, 59208), (59207, 59206), (59197, 59196), (59183, 29591), (59167, 29583), (59159, 59158),
  (59149, 59148), (59141, 59140), (59123, 59122), (59119, 59118), (59113, 59112), (59107, 59106), (59093, 59092),
  (59083, 59082), (59077, 59076), (59069, 59068), (59063, 59062), (59053, 59052), (59051, 59050), (59029, 59028),
  (59023, 29511), (59021, 59020), (59011, 59010), (59009, 59008), (58997, 58996), (58991, 58990), (58979, 58978),
  (58967, 29483), (58963, 58962), (58943, 58942), (58937, 58936), (58921, 29460), (58913, 29456), (58909, 58908),
  (58907, 58906), (58901, 58900), (58897, 58896), (58889, 58888), (58831, 9805), (58789, 58788), (58787, 58786),
  (58771, 58770), (58763, 58762), (58757, 58756), (58741, 58740), (58733, 58732), (58727, 58726), (58711, 58710),
  (58699, 58698), (58693, 58692), (58687, 29343), (58679, 29339), (58661, 58660), (58657, 29328), (58631, 58630),
  (58613, 58612), (58603, 58602), (58601, 29300), (58579, 58578), (58573, 58572), (58567, 58566), (58549, 58548),
  (58543, 58542), (58537, 58536), (58511, 29255), (58481, 58480), (58477, 58476), (58453, 58452), (58451, 58450),
  (58441, 58440), (58439, 29219), (58427, 58426), (58417, 58416), (58411, 58410), (58403, 58402), (58393, 58392),
  (58391, 58390), (58379, 58378), (58369, 58368), (58367, 58366), (58363, 58362), (58337, 58336), (58321, 29160),
  (58313, 58312), (58309, 58308), (58271, 29135), (58243, 58242), (58237, 58236), (58231, 58230), (58229, 58228),
  (58217, 58216), (58211, 58210), (58207, 58206), (58199, 58198), (58193, 29096), (58189, 58188), (58171, 58170),
  (58169, 58168), (58153, 29076), (58151, 58150), (58147, 58146), (58129, 29064), (58111, 58110), (58109, 58108),
  (58099, 58098), (58073, 29036), (58067, 58066), (58061, 58060), (58057, 58056), (58049, 58048), (58043, 58042),
  (58031, 58030), (58027, 58026), (58013, 58012), (57991, 28995), (57977, 57976), (57973, 57972), (57947, 57946),
  (57943, 57942), (57923, 57922), (57917, 57916), (57901, 57900), (57899, 57898), (57881, 57880), (57859, 57858),
  (57853, 57852), (57847, 28923), (57839, 57838), (57829, 57828), (57809, 57808), (57803, 57802), (57793, 57792),
  (57791, 57790), (57787, 57786), (57781, 11556), (57773, 57772), (57751, 57750), (57737, 57736), (57731, 57730),
  (57727, 57726), (57719, 57718), (57713, 57712), (57709, 57708), (57697, 57696), (57689, 57688), (57679, 28839),
  (57667, 57666), (57653, 57652), (57649, 14412), (57641, 57640), (57637, 57636), (57601, 57600), (57593, 14398),
  (57587, 57586), (57571, 57570), (57559, 28779), (57557, 57556), (57529, 57528), (57527, 57526), (57503, 28751),
  (57493, 57492), (57487, 28743), (57467, 57466), (57457, 14364), (57427, 57426), (57413, 57412), (57397, 57396),
  (57389, 57388), (57383, 57382), (57373, 57372), (57367, 57366), (57349, 57348), (57347, 57346), (57331, 57330),
  (57329, 57328), (57301, 57300), (57287, 57286), (57283, 57282), (57271, 11454), (57269, 57268), (57259, 57258),
  (57251, 57250), (57241, 57240), (57223, 28611), (57221, 57220), (57203, 57202), (57193, 57192), (57191, 57190),
  (57179, 57178), (57173, 57172), (57163, 57162), (57149, 57148), (57143, 57142), (57139, 57138), (57131, 57130),
  (57119, 57118), (57107, 57106), (57097, 57096), (57089, 57088), (57077, 57076), (57073, 57072), (57059, 57058),
  (57047, 57046), (57041, 57040), (57037, 57036), (56999, 28499), (56993, 56992), (56989, 56988), (56983, 28491),
  (56963, 56962), (56957, 56956), (56951, 56950), (56941, 56940)]
def orders3 : List (ℕ × ℕ) := [(56929, 56928), (56923, 56922), (56921, 56920), (56911, 56910), (56909, 56908), (56897, 14224), (56893, 56892),
  (56891, 56890), (56873, 56872), (56857, 56856), (56843, 56842), (56827, 56826), (56821, 56820), (56813, 56812),
  (56809, 56808), (56807, 56806), (56783, 56782), (56779, 56778), (56773, 56772), (56767, 56766), (56747, 56746),
  (56737, 56736), (56731, 56730), (56713, 56712), (56711, 56710), (56701, 56700), (56687, 56686), (56681, 28340),
  (56671, 18890), (56663, 56662), (56659, 56658), (56633, 56632), (56629, 56628), (56611, 56610), (56599, 56598),
  (56597, 56596), (56591, 56590), (56569, 28284), (56543, 56542), (56533, 56532), (56531, 56530), (56527, 56526),
  (56519, 56518), (56509, 56508), (56503, 56502), (56501, 56500), (56489, 56488), (56479, 56478), (56477, 56476),
  (56473, 28236), (56467, 56466), (56453, 56452), (56443, 56442), (56437, 56436), (56431, 56430), (56417, 56416),
  (56401, 56400), (56393, 56392), (56383, 28191), (56377, 56376), (56369, 56368), (56359, 56358), (56333, 56332),
  (56311, 56310), (56299, 56298), (56269, 56268), (56267, 56266), (56263, 56262), (56249, 56248), (56239, 56238),
  (56237, 56236), (56209, 56208), (56207, 56206), (56197, 56196), (56179, 56178), (56171, 56170), (56167, 28083),
  (56149, 56148), (56131, 56130), (56123, 56122), (56113, 56112), (56101, 56100), (56099, 56098), (56093, 56092),
  (56087, 56086), (56081, 28040), (56053, 56052), (56041, 56040), (56039, 56038), (56009, 56008), (56003, 56002),
  (55997, 55996), (55987, 55986), (55967, 55966), (55949, 55948), (55933, 55932), (55931, 55930), (55927, 55926),
  (55921, 55920), (55903, 55902), (55901, 55900), (55897, 55896), (55889, 27944), (55871, 55870), (55849, 55848),
  (55843, 55842), (55837, 55836), (55829, 55828), (55823, 55822), (55819, 55818), (55817, 55816), (55813, 55812),
  (55807, 55806), (55799, 55798), (55793, 55792), (55787, 55786), (55763, 55762), (55733, 55732), (55721, 55720),
  (55717, 55716), (55711, 55710), (55697, 55696), (55691, 55690), (55681, 55680), (55673, 27836), (55667, 55666),
  (55663, 55662), (55661, 55660), (55639, 55638), (55633, 27816), (55631, 55630), (55621, 55620), (55619, 55618),
  (55609, 55608), (55603, 55602), (55589, 55588), (55579, 55578), (55547, 55546), (55541, 55540), (55529, 55528),
  (55511, 55510), (55501, 55500), (55487, 55486), (55469, 55468), (55457, 55456), (55441, 55440), (55439, 55438),
  (55411, 55410), (55399, 55398), (55381, 55380), (55373, 55372), (55351, 55350), (55343, 55342), (55339, 55338),
  (55337, 55336), (55333, 55332), (55331, 55330), (55313, 55312), (55291, 55290), (55259, 55258), (55249, 55248),
  (55243, 55242), (55229, 55228), (55219, 55218), (55217, 13804), (55213, 55212), (55207, 55206), (55201, 55200),
  (55171, 55170), (55163, 55162), (55147, 55146), (55127, 55126), (55117, 55116), (55109, 55108), (55103, 27551),
  (55079, 27539), (55073, 55072), (55061, 55060), (55057, 55056), (55051, 55050), (55049, 27524), (55021, 55020),
  (55009, 55008), (55001, 55000), (54983, 27491), (54979, 54978), (54973, 54972), (54959, 54958), (54949, 54948),
  (54941, 54940), (54919, 54918), (54917, 54916), (54907, 54906), (54881, 27440), (54877, 54876), (54869, 54868),
  (54851, 54850), (54833, 54832), (54829, 54828), (54799, 54798), (54787, 54786), (54779, 54778), (54773, 54772),
  (54767, 54766), (54751, 54750), (54727, 54726), (54721, 27360), (54713, 27356), (54709, 54708), (54679, 54678),
  (54673, 54672), (54667, 54666), (54647, 27323), (54631, 27315), (54629, 54628), (54623, 54622), (54617, 54616),
  (54601, 54600), (54583, 54582), (54581, 54580), (54577, 54576), (54563, 54562), (54559, 54558), (54547, 54546),
  (54541, 54540), (54539, 54538), (54521, 54520), (54517, 54516), (54503, 54502), (54499, 54498), (54497, 54496),
  (54493, 54492), (54469, 54468), (54449, 54448), (54443, 54442), (54437, 54436), (54421, 54420), (54419, 54418),
  (54413, 54412), (54409, 54408), (54403, 54402), (54401, 54400), (54377, 54376), (54371, 54370), (54367, 27183),
  (54361, 54360), (54347, 54346), (54331, 54330), (54323, 54322), (54319, 54318), (54311, 54310), (54293, 54292),
  (54287, 54286), (54277, 54276), (54269, 54268), (54251, 54250)]
def orders4 : List (ℕ × ℕ) := [(54217, 13554), (54193, 54192), (54181, 54180), (54167, 54166), (54163, 54162), (54151, 54150), (54139, 54138),
  (54133, 18044), (54121, 27060), (54101, 54100), (54091, 54090), (54083, 54082), (54059, 54058), (54049, 27024),
  (54037, 54036), (54013, 54012), (54011, 54010), (54001, 18000), (53993, 53992), (53987, 53986), (53959, 53958),
  (53951, 53950), (53939, 53938), (53927, 26963), (53923, 53922), (53917, 53916), (53899, 53898), (53897, 26948),
  (53891, 53890), (53887, 53886), (53881, 53880), (53861, 53860), (53857, 53856), (53849, 53848), (53831, 53830),
  (53819, 53818), (53813, 53812), (53791, 53790), (53783, 53782), (53777, 53776), (53773, 53772), (53759, 53758),
  (53731, 53730), (53719, 53718), (53717, 53716), (53699, 53698), (53693, 53692), (53681, 53680), (53657, 53656),
  (53653, 53652), (53639, 26819), (53633, 53632), (53629, 53628), (53623, 26811), (53617, 53616), (53611, 17870),
  (53609, 53608), (53597, 53596), (53593, 53592), (53591, 53590), (53569, 17856), (53551, 53550), (53549, 53548),
  (53527, 53526), (53507, 53506), (53503, 53502), (53479, 53478), (53453, 53452), (53441, 53440), (53437, 53436),
  (53419, 53418), (53411, 53410), (53407, 53406), (53401, 53400), (53381, 53380), (53377, 53376), (53359, 26679),
  (53353, 53352), (53327, 53326), (53323, 53322), (53309, 53308), (53299, 53298), (53281, 53280), (53279, 53278),
  (53269, 53268), (53267, 53266), (53239, 53238), (53233, 53232), (53231, 26615), (53201, 26600), (53197, 53196),
  (53189, 53188), (53173, 53172), (53171, 53170), (53161, 53160), (53149, 17716), (53147, 53146), (53129, 53128),
  (53117, 53116), (53113, 53112), (53101, 53100), (53093, 53092), (53089, 26544), (53087, 53086), (53077, 53076),
  (53069, 53068), (53051, 53050), (53047, 53046), (53017, 53016), (53003, 53002), (52999, 52998), (52981, 52980),
  (52973, 52972), (52967, 26483), (52963, 52962), (52957, 52956), (52951, 26475), (52937, 52936), (52919, 52918),
  (52903, 52902), (52901, 52900), (52889, 52888), (52883, 52882), (52879, 52878), (52861, 52860), (52859, 52858),
  (52837, 52836), (52817, 26408), (52813, 52812), (52807, 26403), (52783, 52782), (52769, 52768), (52757, 52756),
  (52747, 52746), (52733, 52732), (52727, 52726), (52721, 52720), (52711, 17570), (52709, 52708), (52697, 52696),
  (52691, 52690), (52673, 52672), (52667, 52666), (52639, 26319), (52631, 26315), (52627, 52626), (52609, 26304),
  (52583, 26291), (52579, 52578), (52571, 52570), (52567, 52566), (52561, 52560), (52553, 52552), (52543, 52542),
  (52541, 52540), (52529, 52528), (52517, 52516), (52511, 52510), (52501, 52500), (52489, 52488), (52457, 52456),
  (52453, 52452), (52433, 52432), (52391, 52390), (52387, 52386), (52379, 52378), (52369, 52368), (52363, 52362),
  (52361, 52360), (52321, 52320), (52313, 26156), (52301, 52300), (52291, 52290), (52289, 52288), (52267, 52266),
  (52259, 52258), (52253, 52252), (52249, 52248), (52237, 52236), (52223, 52222), (52201, 13050), (52189, 52188),
  (52183, 52182), (52181, 52180), (52177, 52176), (52163, 52162), (52153, 52152), (52147, 52146), (52127, 52126),
  (52121, 52120), (52103, 52102), (52081, 26040), (52069, 52068), (52067, 52066), (52057, 52056), (52051, 52050),
  (52027, 52026), (52021, 52020), (52009, 52008), (51991, 51990), (51977, 12994), (51973, 51972), (51971, 51970),
  (51949, 51948), (51941, 51940), (51929, 51928), (51913, 51912), (51907, 51906), (51899, 51898), (51893, 51892),
  (51871, 51870), (51869, 51868), (51859, 51858), (51853, 51852), (51839, 51838), (51829, 51828), (51827, 51826),
  (51817, 51816), (51803, 51802), (51797, 51796), (51787, 51786), (51769, 25884), (51767, 51766), (51749, 51748),
  (51721, 51720), (51719, 25859), (51713, 25856), (51691, 51690), (51683, 51682), (51679, 25839), (51673, 51672),
  (51659, 51658), (51647, 51646), (51637, 51636), (51631, 25815), (51613, 51612), (51607, 25803), (51599, 51598),
  (51593, 51592), (51581, 51580), (51577, 51576), (51563, 51562), (51551, 51550), (51539, 51538), (51521, 51520),
  (51517, 51516), (51511, 25755), (51503, 51502), (51487, 51486), (51481, 17160), (51479, 51478), (51473, 51472),
  (51461, 51460), (51449, 51448), (51439, 25719), (51437, 51436)]
def orders5 : List (ℕ × ℕ) := [(51431, 51430), (51427, 51426), (51421, 51420), (51419, 51418), (51413, 51412), (51407, 25703), (51383, 51382),
  (51361, 12840), (51349, 17116), (51347, 51346), (51343, 25671), (51341, 51340), (51329, 51328), (51307, 51306),
  (51287, 25643), (51283, 51282), (51263, 51262), (51257, 51256), (51241, 25620), (51239, 25619), (51229, 51228),
  (51217, 51216), (51203, 51202), (51199, 51198), (51197, 51196), (51193, 25596), (51169, 51168), (51157, 51156),
  (51151, 51150), (51137, 12784), (51133, 51132), (51131, 51130), (51109, 51108), (51071, 25535), (51061, 51060),
  (51059, 51058), (51047, 51046), (51043, 51042), (51031, 51030), (51001, 51000), (50993, 50992), (50989, 50988),
  (50971, 50970), (50969, 25484), (50957, 50956), (50951, 25475), (50929, 50928), (50923, 50922), (50909, 50908),
  (50893, 50892), (50891, 50890), (50873, 25436), (50867, 50866), (50857, 50856), (50849, 25424), (50839, 50838),
  (50833, 50832), (50821, 50820), (50789, 50788), (50777, 50776), (50773, 50772), (50767, 25383), (50753, 50752),
  (50741, 50740), (50723, 50722), (50707, 50706), (50683, 50682), (50671, 8445), (50651, 50650), (50647, 50646),
  (50627, 50626), (50599, 50598), (50593, 50592), (50591, 50590), (50587, 50586), (50581, 50580), (50551, 50550),
  (50549, 50548), (50543, 50542), (50539, 50538), (50527, 50526), (50513, 25256), (50503, 25251), (50497, 50496),
  (50461, 50460), (50459, 50458), (50441, 50440), (50423, 50422), (50417, 50416), (50411, 50410), (50387, 50386),
  (50383, 50382), (50377, 50376), (50363, 50362), (50359, 50358), (50341, 50340), (50333, 50332), (50329, 50328),
  (50321, 50320), (50311, 50310), (50291, 50290), (50287, 50286), (50273, 50272), (50263, 25131), (50261, 50260),
  (50231, 50230), (50227, 50226), (50221, 16740), (50207, 25103), (50177, 50176), (50159, 50158), (50153, 50152),
  (50147, 50146), (50131, 50130), (50129, 25064), (50123, 50122), (50119, 16706), (50111, 50110), (50101, 50100),
  (50093, 50092), (50087, 50086), (50077, 50076), (50069, 50068), (50053, 50052), (50051, 50050), (50047, 50046),
  (50033, 25016), (50023, 50022), (50021, 50020), (49999, 49998), (49993, 49992), (49991, 49990), (49957, 16652),
  (49943, 24971), (49939, 49938), (49937, 49936), (49927, 49926), (49921, 49920), (49919, 49918), (49891, 49890),
  (49877, 49876), (49871, 24935), (49853, 49852), (49843, 49842), (49831, 49830), (49823, 49822), (49811, 49810),
  (49807, 49806), (49801, 49800), (49789, 16596), (49787, 49786), (49783, 49782), (49757, 49756), (49747, 49746),
  (49741, 49740), (49739, 49738), (49727, 24863), (49711, 49710), (49697, 49696), (49681, 24840), (49669, 49668),
  (49667, 49666), (49663, 24831), (49639, 49638), (49633, 49632), (49627, 49626), (49613, 49612), (49603, 49602),
  (49597, 49596), (49559, 24779), (49549, 49548), (49547, 49546), (49537, 49536), (49531, 49530), (49529, 24764),
  (49523, 49522), (49499, 49498), (49481, 49480), (49477, 16492), (49463, 49462), (49459, 49458), (49451, 49450),
  (49433, 49432), (49429, 49428), (49417, 49416), (49411, 49410), (49409, 49408), (49393, 49392), (49391, 24695),
  (49369, 49368), (49367, 49366), (49363, 49362), (49339, 49338), (49333, 49332), (49331, 49330), (49307, 49306),
  (49297, 49296), (49279, 24639), (49277, 49276), (49261, 49260), (49253, 49252), (49223, 24611), (49211, 49210),
  (49207, 49206), (49201, 49200), (49199, 49198), (49193, 24596), (49177, 49176), (49171, 49170), (49169, 24584),
  (49157, 49156), (49139, 49138), (49123, 49122), (49121, 24560), (49117, 49116), (49109, 49108), (49103, 49102),
  (49081, 49080), (49069, 49068), (49057, 12264), (49043, 49042), (49037, 49036), (49033, 49032), (49031, 24515),
  (49019, 49018), (49009, 49008), (49003, 49002), (48991, 48990), (48989, 48988), (48973, 48972), (48953, 48952),
  (48947, 48946), (48907, 48906), (48889, 48888), (48883, 48882), (48871, 48870), (48869, 48868), (48859, 48858),
  (48857, 24428), (48847, 48846), (48823, 48822), (48821, 48820), (48817, 48816), (48809, 48808), (48799, 48798),
  (48787, 48786), (48781, 48780), (48779, 48778), (48767, 48766), (48761, 48760), (48757, 48756), (48751, 24375),
  (48733, 48732), (48731, 48730), (48679, 48678), (48677, 48676)]
def orders6 : List (ℕ × ℕ) := [(48673, 12168), (48661, 48660), (48649, 48648), (48647, 48646), (48623, 48622), (48619, 48618), (48611, 48610),
  (48593, 48592), (48589, 48588), (48571, 48570), (48563, 48562), (48541, 48540), (48539, 48538), (48533, 48532),
  (48527, 48526), (48523, 48522), (48497, 48496), (48491, 48490), (48487, 48486), (48481, 48480), (48479, 48478),
  (48473, 48472), (48463, 48462), (48449, 24224), (48437, 48436), (48413, 48412), (48409, 24204), (48407, 48406),
  (48397, 48396), (48383, 48382), (48371, 48370), (48353, 24176), (48341, 48340), (48337, 24168), (48313, 48312),
  (48311, 48310), (48299, 48298), (48281, 48280), (48271, 24135), (48259, 48258), (48247, 24123), (48239, 48238),
  (48221, 48220), (48197, 48196), (48193, 48192), (48187, 48186), (48179, 48178), (48163, 16054), (48157, 16052),
  (48131, 48130), (48121, 48120), (48119, 48118), (48109, 48108), (48091, 48090), (48079, 48078), (48073, 24036),
  (48049, 24024), (48029, 48028), (48023, 24011), (48017, 48016), (47981, 47980), (47977, 47976), (47969, 47968),
  (47963, 47962), (47951, 47950), (47947, 47946), (47939, 47938), (47933, 47932), (47917, 47916), (47911, 47910),
  (47903, 47902), (47881, 23940), (47869, 47868), (47857, 47856), (47843, 47842), (47837, 47836), (47819, 47818),
  (47809, 47808), (47807, 47806), (47797, 15932), (47791, 47790), (47779, 47778), (47777, 23888), (47743, 23871),
  (47741, 47740), (47737, 47736), (47717, 47716), (47713, 47712), (47711, 23855), (47701, 47700), (47699, 47698),
  (47681, 47680), (47659, 47658), (47657, 11914), (47653, 47652), (47639, 47638), (47629, 15876), (47623, 47622),
  (47609, 47608), (47599, 23799), (47591, 47590), (47581, 47580), (47569, 47568), (47563, 47562), (47543, 47542),
  (47533, 47532), (47527, 47526), (47521, 47520), (47513, 47512), (47507, 47506), (47501, 47500), (47497, 23748),
  (47491, 47490), (47459, 47458), (47441, 47440), (47431, 23715), (47419, 47418), (47417, 47416), (47407, 47406),
  (47389, 47388), (47387, 47386), (47381, 47380), (47363, 47362), (47353, 47352), (47351, 23675), (47339, 47338),
  (47317, 47316), (47309, 47308), (47303, 47302), (47297, 47296), (47293, 47292), (47287, 47286), (47279, 47278),
  (47269, 47268), (47251, 47250), (47237, 47236), (47221, 47220), (47207, 47206), (47189, 47188), (47161, 47160),
  (47149, 47148), (47147, 47146), (47143, 47142), (47137, 47136), (47129, 47128), (47123, 47122), (47119, 47118),
  (47111, 47110), (47093, 47092), (47087, 23543), (47059, 47058), (47057, 47056), (47051, 47050), (47041, 47040),
  (47017, 47016), (46997, 46996), (46993, 46992), (46957, 46956), (46933, 46932), (46919, 46918), (46901, 46900),
  (46889, 46888), (46877, 46876), (46867, 46866), (46861, 46860), (46853, 46852), (46831, 46830), (46829, 46828),
  (46819, 46818), (46817, 46816), (46811, 46810), (46807, 23403), (46771, 46770), (46769, 46768), (46757, 46756),
  (46751, 23375), (46747, 46746), (46727, 46726), (46723, 46722), (46703, 46702), (46691, 46690), (46687, 46686),
  (46681, 46680), (46679, 23339), (46663, 46662), (46649, 23324), (46643, 46642), (46639, 46638), (46633, 46632),
  (46619, 46618), (46601, 23300), (46591, 23295), (46589, 46588), (46573, 46572), (46567, 46566), (46559, 46558),
  (46549, 46548), (46523, 46522), (46511, 46510), (46507, 46506), (46499, 46498), (46489, 46488), (46477, 46476),
  (46471, 46470), (46457, 46456), (46451, 46450), (46447, 46446), (46441, 46440), (46439, 46438), (46411, 46410),
  (46399, 23199), (46381, 46380), (46351, 46350), (46349, 46348), (46337, 46336), (46327, 46326), (46309, 46308),
  (46307, 46306), (46301, 46300), (46279, 46278), (46273, 46272), (46271, 46270), (46261, 46260), (46237, 46236),
  (46229, 46228), (46219, 15406), (46199, 23099), (46187, 46186), (46183, 46182), (46181, 46180), (46171, 46170),
  (46153, 46152), (46147, 46146), (46141, 46140), (46133, 46132), (46103, 46102), (46099, 46098), (46093, 46092),
  (46091, 46090), (46073, 46072), (46061, 46060), (46051, 46050), (46049, 46048), (46027, 46026), (46021, 46020),
  (45989, 45988), (45979, 45978), (45971, 45970), (45959, 45958), (45953, 45952), (45949, 45948), (45943, 45942),
  (45893, 45892), (45887, 45886), (45869, 45868), (45863, 22931)]
def orders7 : List (ℕ × ℕ) := [(45853, 45852), (45841, 45840), (45833, 22916), (45827, 45826), (45823, 45822), (45821, 45820), (45817, 45816),
  (45779, 45778), (45767, 45766), (45763, 45762), (45757, 45756), (45751, 22875), (45737, 45736), (45707, 45706),
  (45697, 45696), (45691, 45690), (45677, 45676), (45673, 45672), (45667, 45666), (45659, 45658), (45641, 22820),
  (45631, 22815), (45613, 45612), (45599, 45598), (45589, 45588), (45587, 45586), (45569, 45568), (45557, 45556),
  (45553, 22776), (45541, 45540), (45533, 45532), (45523, 45522), (45503, 22751), (45497, 22748), (45491, 45490),
  (45481, 22740), (45439, 45438), (45433, 45432), (45427, 45426), (45413, 45412), (45403, 45402), (45389, 45388),
  (45377, 45376), (45361, 45360), (45343, 45342), (45341, 45340), (45337, 45336), (45329, 45328), (45319, 45318),
  (45317, 45316), (45307, 45306), (45293, 45292), (45289, 45288), (45281, 45280), (45263, 45262), (45259, 45258),
  (45247, 22623), (45233, 45232), (45197, 45196), (45191, 45190), (45181, 45180), (45179, 45178), (45161, 45160),
  (45139, 45138), (45137, 11284), (45131, 45130), (45127, 22563), (45121, 45120), (45119, 45118), (45083, 45082),
  (45077, 45076), (45061, 45060), (45053, 45052), (45013, 45012), (45007, 45006), (44987, 44986), (44983, 44982),
  (44971, 8994), (44963, 44962), (44959, 44958), (44953, 44952), (44939, 44938), (44927, 44926), (44917, 14972),
  (44909, 44908), (44893, 14964), (44887, 22443), (44879, 44878), (44867, 44866), (44851, 44850), (44843, 44842),
  (44839, 44838), (44819, 44818), (44809, 44808), (44797, 44796), (44789, 44788), (44777, 44776), (44773, 44772),
  (44771, 44770), (44753, 44752), (44741, 44740), (44729, 44728), (44711, 44710), (44701, 44700), (44699, 44698),
  (44687, 44686), (44683, 44682), (44657, 22328), (44651, 44650), (44647, 44646), (44641, 44640), (44633, 22316),
  (44623, 44622), (44621, 44620), (44617, 44616), (44587, 14862), (44579, 44578), (44563, 44562), (44549, 44548),
  (44543, 44542), (44537, 44536), (44533, 44532), (44531, 44530), (44519, 44518), (44507, 44506), (44501, 44500),
  (44497, 44496), (44491, 44490), (44483, 44482), (44453, 44452), (44449, 44448), (44417, 22208), (44389, 44388),
  (44383, 22191), (44381, 44380), (44371, 44370), (44357, 44356), (44351, 22175), (44293, 44292), (44281, 44280),
  (44279, 44278), (44273, 44272), (44269, 44268), (44267, 44266), (44263, 44262), (44257, 44256), (44249, 44248),
  (44221, 44220), (44207, 44206), (44203, 44202), (44201, 44200), (44189, 44188), (44179, 44178), (44171, 44170),
  (44159, 22079), (44131, 44130), (44129, 44128), (44123, 44122), (44119, 22059), (44111, 44110), (44101, 44100),
  (44089, 44088), (44087, 44086), (44071, 44070), (44059, 44058), (44053, 44052), (44041, 22020), (44029, 44028),
  (44027, 44026), (44021, 44020), (44017, 22008), (43997, 43996), (43991, 43990), (43987, 43986), (43973, 43972),
  (43969, 3664), (43963, 43962), (43961, 21980), (43951, 43950), (43943, 43942), (43933, 43932), (43913, 43912),
  (43891, 43890), (43889, 43888), (43867, 43866), (43853, 43852), (43801, 21900), (43793, 21896), (43789, 43788),
  (43787, 43786), (43783, 21891), (43781, 43780), (43777, 43776), (43759, 43758), (43753, 43752), (43721, 43720),
  (43717, 43716), (43711, 43710), (43691, 43690), (43669, 43668), (43661, 43660), (43651, 43650), (43649, 21824),
  (43633, 43632), (43627, 43626), (43613, 43612), (43609, 43608), (43607, 43606), (43597, 43596), (43591, 43590),
  (43579, 43578), (43577, 43576), (43573, 43572), (43543, 43542), (43541, 43540), (43517, 43516), (43499, 43498),
  (43487, 43486), (43481, 21740), (43457, 21728), (43451, 43450), (43441, 43440), (43427, 43426), (43411, 43410),
  (43403, 43402), (43399, 14466), (43397, 43396), (43391, 21695), (43331, 43330), (43321, 43320), (43319, 21659),
  (43313, 10828), (43291, 43290), (43283, 43282), (43271, 43270), (43261, 43260), (43237, 43236), (43223, 43222),
  (43207, 21603), (43201, 21600), (43189, 43188), (43177, 43176), (43159, 43158), (43151, 43150), (43133, 43132),
  (43117, 43116), (43103, 43102), (43093, 43092), (43067, 43066), (43063, 21531), (43051, 43050), (43049, 43048),
  (43037, 43036), (43019, 43018), (43013, 43012), (43003, 43002)]
def orders8 : List (ℕ × ℕ) := [(42989, 42988), (42979, 42978), (42967, 42966), (42961, 42960), (42953, 21476), (42943, 21471), (42937, 42936),
  (42929, 42928), (42923, 42922), (42901, 42900), (42899, 42898), (42863, 42862), (42859, 42858), (42853, 42852),
  (42841, 21420), (42839, 42838), (42829, 42828), (42821, 42820), (42797, 42796), (42793, 42792), (42787, 42786),
  (42773, 42772), (42767, 42766), (42751, 42750), (42743, 42742), (42737, 42736), (42727, 21363), (42719, 21359),
  (42709, 42708), (42703, 21351), (42701, 42700), (42697, 21348), (42689, 42688), (42683, 42682), (42677, 42676),
  (42667, 42666), (42649, 42648), (42643, 42642), (42641, 42640), (42611, 42610), (42589, 42588), (42577, 42576),
  (42571, 42570), (42569, 21284), (42557, 42556), (42533, 42532), (42509, 42508), (42499, 42498), (42491, 42490),
  (42487, 42486), (42473, 42472), (42467, 42466), (42463, 42462), (42461, 42460), (42457, 21228), (42451, 42450),
  (42443, 42442), (42437, 42436), (42433, 42432), (42409, 42408), (42407, 42406), (42403, 42402), (42397, 42396),
  (42391, 21195), (42379, 42378), (42373, 42372), (42359, 42358), (42349, 42348), (42337, 21168), (42331, 42330),
  (42323, 42322), (42307, 42306), (42299, 42298), (42293, 42292), (42283, 42282), (42281, 42280), (42257, 42256),
  (42239, 42238), (42227, 42226), (42223, 42222), (42221, 42220), (42209, 42208), (42197, 42196), (42193, 21096),
  (42187, 42186), (42181, 14060), (42179, 42178), (42169, 42168), (42157, 42156), (42139, 42138), (42131, 42130),
  (42101, 42100), (42089, 42088), (42083, 42082), (42073, 42072), (42071, 42070), (42061, 42060), (42043, 42042),
  (42023, 42022), (42019, 42018), (42017, 42016), (42013, 42012), (41999, 41998), (41983, 41982), (41981, 41980),
  (41969, 20984), (41959, 41958), (41957, 41956), (41953, 20976), (41947, 41946), (41941, 41940), (41927, 41926),
  (41911, 41910), (41903, 41902), (41897, 41896), (41893, 41892), (41887, 20943), (41879, 41878), (41863, 41862),
  (41851, 41850), (41849, 41848), (41843, 41842), (41813, 41812), (41809, 13936), (41801, 20900), (41777, 41776),
  (41771, 41770), (41761, 41760), (41759, 41758), (41737, 41736), (41729, 20864), (41719, 20859), (41687, 41686),
  (41681, 41680), (41669, 41668), (41659, 41658), (41651, 41650), (41647, 41646), (41641, 41640), (41627, 41626),
  (41621, 41620), (41617, 6936), (41611, 41610), (41609, 41608), (41603, 41602), (41597, 41596), (41593, 41592),
  (41579, 41578), (41549, 41548), (41543, 41542), (41539, 41538), (41521, 20760), (41519, 41518), (41513, 41512),
  (41507, 41506), (41491, 41490), (41479, 41478), (41467, 41466), (41453, 41452), (41443, 41442), (41413, 41412),
  (41411, 41410), (41399, 41398), (41389, 13796), (41387, 41386), (41381, 41380), (41357, 41356), (41351, 41350),
  (41341, 41340), (41333, 41332), (41299, 41298), (41281, 20640), (41269, 41268), (41263, 6877), (41257, 41256),
  (41243, 41242), (41233, 41232), (41231, 41230), (41227, 41226), (41221, 41220), (41213, 41212), (41203, 41202),
  (41201, 41200), (41189, 41188), (41183, 41182), (41179, 41178), (41177, 41176), (41161, 20580), (41149, 41148),
  (41143, 41142), (41141, 41140), (41131, 41130), (41117, 41116), (41113, 20556), (41081, 41080), (41077, 41076),
  (41057, 20528), (41051, 41050), (41047, 41046), (41039, 20519), (41023, 41022), (41017, 20508), (41011, 41010),
  (40993, 10248), (40973, 40972), (40961, 40960), (40949, 40948), (40939, 40938), (40933, 40932), (40927, 20463),
  (40903, 40902), (40897, 40896), (40883, 40882), (40879, 20439), (40867, 40866), (40853, 40852), (40849, 40848),
  (40847, 40846), (40841, 40840), (40829, 40828), (40823, 20411), (40819, 13606), (40813, 40812), (40801, 40800),
  (40787, 40786), (40771, 40770), (40763, 40762), (40759, 40758), (40751, 40750), (40739, 40738), (40709, 40708),
  (40699, 40698), (40697, 40696), (40693, 40692), (40639, 40638), (40637, 40636), (40627, 40626), (40609, 40608),
  (40597, 40596), (40591, 40590), (40583, 40582), (40577, 40576), (40559, 40558), (40543, 20271), (40531, 40530),
  (40529, 40528), (40519, 20259), (40507, 40506), (40499, 40498), (40493, 40492), (40487, 40486), (40483, 40482),
  (40471, 40470), (40459, 40458), (40433, 40432), (40429, 40428)]
def orders9 : List (ℕ × ℕ) := [(40427, 40426), (40423, 20211), (40387, 40386), (40361, 40360), (40357, 40356), (40351, 40350), (40343, 40342),
  (40289, 40288), (40283, 40282), (40277, 40276), (40253, 40252), (40241, 40240), (40237, 40236), (40231, 40230),
  (40213, 13404), (40193, 40192), (40189, 40188), (40177, 20088), (40169, 40168), (40163, 40162), (40153, 20076),
  (40151, 20075), (40129, 40128), (40127, 40126), (40123, 40122), (40111, 40110), (40099, 40098), (40093, 40092),
  (40087, 40086), (40063, 40062), (40039, 40038), (40037, 40036), (40031, 20015), (40013, 40012), (40009, 40008),
  (39989, 39988), (39983, 39982), (39979, 39978), (39971, 39970), (39953, 39952), (39937, 13312), (39929, 39928),
  (39901, 39900), (39887, 39886), (39883, 39882), (39877, 39876), (39869, 39868), (39863, 39862), (39857, 39856),
  (39847, 19923), (39841, 39840), (39839, 39838), (39829, 39828), (39827, 39826), (39821, 39820), (39799, 13266),
  (39791, 19895), (39779, 39778), (39769, 19884), (39761, 39760), (39749, 39748), (39733, 39732), (39727, 39726),
  (39719, 39718), (39709, 39708), (39703, 39702), (39679, 39678), (39671, 39670), (39667, 39666), (39659, 39658),
  (39631, 39630), (39623, 19811), (39619, 39618), (39607, 39606), (39581, 39580), (39569, 39568), (39563, 39562),
  (39551, 39550), (39541, 39540), (39521, 39520), (39511, 39510), (39509, 39508), (39503, 39502), (39499, 39498),
  (39461, 39460), (39451, 39450), (39443, 39442), (39439, 39438), (39419, 39418), (39409, 39408), (39397, 39396),
  (39383, 39382), (39373, 39372), (39371, 39370), (39367, 19683), (39359, 19679), (39343, 39342), (39341, 39340),
  (39323, 39322), (39317, 39316), (39313, 39312), (39301, 39300), (39293, 39292), (39251, 39250), (39241, 39240),
  (39239, 39238), (39233, 39232), (39229, 39228), (39227, 39226), (39217, 39216), (39209, 19604), (39199, 39198),
  (39191, 39190), (39181, 39180), (39163, 39162), (39161, 39160), (39157, 39156), (39139, 39138), (39133, 39132),
  (39119, 39118), (39113, 19556), (39107, 39106), (39103, 39102), (39097, 19548), (39089, 19544), (39079, 19539),
  (39047, 39046), (39043, 39042), (39041, 19520), (39023, 39022), (39019, 39018), (38993, 38992), (38977, 38976),
  (38971, 38970), (38959, 38958), (38953, 38952), (38933, 38932), (38923, 38922), (38921, 19460), (38917, 38916),
  (38903, 38902), (38891, 38890), (38873, 19436), (38867, 38866), (38861, 38860), (38851, 12950), (38839, 38838),
  (38833, 38832), (38821, 38820), (38803, 12934), (38791, 38790), (38783, 19391), (38767, 38766), (38749, 38748),
  (38747, 38746), (38737, 38736), (38729, 38728), (38723, 38722), (38713, 38712), (38711, 38710), (38707, 38706),
  (38699, 38698), (38693, 38692), (38677, 38676), (38671, 19335), (38669, 38668), (38653, 38652), (38651, 38650),
  (38639, 38638), (38629, 38628), (38611, 38610), (38609, 19304), (38603, 38602), (38593, 19296), (38569, 38568),
  (38567, 38566), (38561, 38560), (38557, 38556), (38543, 38542), (38501, 38500), (38461, 12820), (38459, 38458),
  (38453, 38452), (38449, 38448), (38447, 38446), (38431, 38430), (38393, 38392), (38377, 38376), (38371, 38370),
  (38351, 7670), (38333, 38332), (38329, 38328), (38327, 38326), (38321, 38320), (38317, 38316), (38303, 19151),
  (38299, 38298), (38287, 38286), (38281, 38280), (38273, 38272), (38261, 38260), (38239, 38238), (38237, 38236),
  (38231, 38230), (38219, 38218), (38201, 19100), (38197, 38196), (38189, 38188), (38183, 19091), (38177, 38176),
  (38167, 19083), (38153, 38152), (38149, 38148), (38119, 38118), (38113, 38112), (38083, 38082), (38069, 38068),
  (38053, 12684), (38047, 38046), (38039, 38038), (38011, 38010), (37997, 37996), (37993, 37992), (37991, 37990),
  (37987, 37986), (37967, 18983), (37963, 37962), (37957, 37956), (37951, 37950), (37907, 37906), (37897, 37896),
  (37889, 37888), (37879, 37878), (37871, 37870), (37861, 37860), (37853, 37852), (37847, 18923), (37831, 37830),
  (37813, 37812), (37811, 37810), (37799, 37798), (37783, 37782), (37781, 37780), (37747, 37746), (37717, 37716),
  (37699, 37698), (37693, 37692), (37691, 37690), (37663, 37662), (37657, 18828), (37649, 37648), (37643, 37642),
  (37633, 18816), (37619, 37618), (37607, 37606), (37591, 37590)]
def orders10 : List (ℕ × ℕ) := [(37589, 37588), (37579, 37578), (37573, 37572), (37571, 37570), (37567, 18783), (37561, 37560), (37549, 37548),
  (37547, 37546), (37537, 37536), (37529, 18764), (37517, 37516), (37511, 18755), (37507, 37506), (37501, 37500),
  (37493, 37492), (37489, 37488), (37483, 37482), (37463, 18731), (37447, 37446), (37441, 37440), (37423, 37422),
  (37409, 18704), (37397, 37396), (37379, 37378), (37369, 37368), (37363, 37362), (37361, 37360), (37357, 37356),
  (37339, 37338), (37337, 37336), (37321, 37320), (37313, 37312), (37309, 37308), (37307, 37306), (37277, 37276),
  (37273, 37272), (37253, 37252), (37243, 37242), (37223, 37222), (37217, 37216), (37201, 37200), (37199, 37198),
  (37189, 37188), (37181, 37180), (37171, 12390), (37159, 12386), (37139, 37138), (37123, 37122), (37117, 37116),
  (37097, 18548), (37087, 37086), (37061, 37060), (37057, 37056), (37049, 37048), (37039, 37038), (37021, 37020),
  (37019, 37018), (37013, 37012), (37003, 37002), (36997, 36996), (36979, 36978), (36973, 36972), (36947, 36946),
  (36943, 36942), (36931, 36930), (36929, 36928), (36923, 36922), (36919, 36918), (36913, 36912), (36901, 36900),
  (36899, 36898), (36887, 36886), (36877, 36876), (36871, 36870), (36857, 18428), (36847, 18423), (36833, 36832),
  (36821, 36820), (36809, 36808), (36793, 36792), (36791, 36790), (36787, 36786), (36781, 36780), (36779, 36778),
  (36767, 18383), (36761, 18380), (36749, 36748), (36739, 36738), (36721, 36720), (36713, 36712), (36709, 36708),
  (36697, 36696), (36691, 36690), (36683, 36682), (36677, 36676), (36671, 36670), (36653, 36652), (36643, 36642),
  (36637, 36636), (36629, 36628), (36607, 36606), (36599, 18299), (36587, 36586), (36583, 36582), (36571, 36570),
  (36563, 36562), (36559, 18279), (36551, 36550), (36541, 36540), (36529, 36528), (36527, 36526), (36523, 36522),
  (36497, 36496), (36493, 36492), (36479, 36478), (36473, 36472), (36469, 36468), (36467, 36466), (36457, 36456),
  (36451, 36450), (36433, 36432), (36389, 36388), (36383, 36382), (36373, 36372), (36353, 18176), (36343, 18171),
  (36341, 36340), (36319, 36318), (36313, 36312), (36307, 36306), (36299, 36298), (36293, 36292), (36277, 36276),
  (36269, 36268), (36263, 36262), (36251, 36250), (36241, 36240), (36229, 36228), (36217, 36216), (36209, 36208),
  (36191, 36190), (36187, 36186), (36161, 36160), (36151, 3615), (36137, 36136), (36131, 36130), (36109, 36108),
  (36107, 36106), (36097, 36096), (36083, 36082), (36073, 18036), (36067, 36066), (36061, 36060), (36037, 36036),
  (36017, 18008), (36013, 36012), (36011, 36010), (36007, 36006), (35999, 17999), (35993, 35992), (35983, 35982),
  (35977, 17988), (35969, 35968), (35963, 35962), (35951, 17975), (35933, 35932), (35923, 35922), (35911, 35910),
  (35899, 35898), (35897, 35896), (35879, 35878), (35869, 35868), (35863, 35862), (35851, 35850), (35839, 35838),
  (35837, 35836), (35831, 35830), (35809, 11936), (35803, 35802), (35801, 35800), (35797, 35796), (35771, 35770),
  (35759, 17879), (35753, 35752), (35747, 35746), (35731, 35730), (35729, 35728), (35677, 35676), (35671, 17835),
  (35617, 35616), (35603, 35602), (35597, 35596), (35593, 35592), (35591, 35590), (35573, 35572), (35569, 35568),
  (35543, 35542), (35537, 35536), (35533, 35532), (35531, 35530), (35527, 35526), (35521, 35520), (35509, 35508),
  (35507, 35506), (35491, 35490), (35461, 35460), (35449, 35448), (35447, 35446), (35437, 35436), (35423, 35422),
  (35419, 35418), (35407, 35406), (35401, 35400), (35393, 17696), (35381, 35380), (35363, 35362), (35353, 35352),
  (35339, 35338), (35327, 35326), (35323, 35322), (35317, 35316), (35311, 35310), (35291, 35290), (35281, 35280),
  (35279, 35278), (35267, 35266), (35257, 35256), (35251, 35250), (35227, 35226), (35221, 35220), (35201, 35200),
  (35171, 35170), (35159, 35158), (35153, 35152), (35149, 35148), (35141, 35140), (35129, 35128), (35117, 35116),
  (35111, 17555), (35107, 35106), (35099, 35098), (35089, 35088), (35083, 35082), (35081, 35080), (35069, 35068),
  (35059, 35058), (35053, 35052), (35051, 35050), (35027, 35026), (35023, 35022), (34981, 34980), (34963, 34962),
  (34961, 34960), (34949, 34948), (34939, 34938), (34919, 17459)]
def orders11 : List (ℕ × ℕ) := [(34913, 34912), (34897, 17448), (34883, 34882), (34877, 34876), (34871, 34870), (34849, 34848), (34847, 34846),
  (34843, 34842), (34841, 34840), (34819, 34818), (34807, 34806), (34781, 34780), (34763, 34762), (34759, 34758),
  (34757, 34756), (34747, 34746), (34739, 34738), (34729, 17364), (34721, 8680), (34703, 34702), (34693, 34692),
  (34687, 34686), (34679, 34678), (34673, 17336), (34667, 34666), (34651, 34650), (34649, 34648), (34631, 34630),
  (34613, 34612), (34607, 17303), (34603, 34602), (34591, 34590), (34589, 34588), (34583, 17291), (34549, 34548),
  (34543, 34542), (34537, 34536), (34519, 34518), (34513, 11504), (34511, 34510), (34501, 34500), (34499, 34498),
  (34487, 17243), (34483, 34482), (34471, 34470), (34469, 34468), (34457, 34456), (34439, 34438), (34429, 34428),
  (34421, 34420), (34403, 34402), (34381, 34380), (34369, 34368), (34367, 34366), (34361, 34360), (34351, 34350),
  (34337, 34336), (34327, 17163), (34319, 34318), (34313, 34312), (34303, 34302), (34301, 34300), (34297, 17148),
  (34283, 34282), (34273, 17136), (34267, 34266), (34261, 34260), (34259, 34258), (34253, 34252), (34231, 11410),
  (34217, 17108), (34213, 34212), (34211, 34210), (34183, 34182), (34171, 34170), (34159, 17079), (34157, 34156),
  (34147, 34146), (34141, 34140), (34129, 34128), (34127, 34126), (34123, 34122), (34061, 34060), (34057, 17028),
  (34039, 17019), (34033, 34032), (34031, 34030), (34019, 34018), (33997, 33996), (33967, 33966), (33961, 16980),
  (33941, 33940), (33937, 33936), (33931, 33930), (33923, 33922), (33911, 16955), (33893, 33892), (33889, 16944),
  (33871, 16935), (33863, 33862), (33857, 33856), (33851, 33850), (33829, 33828), (33827, 33826), (33811, 33810),
  (33809, 33808), (33797, 33796), (33791, 33790), (33773, 33772), (33769, 16884), (33767, 16883), (33757, 33756),
  (33751, 33750), (33749, 33748), (33739, 33738), (33721, 16860), (33713, 16856), (33703, 33702), (33679, 33678),
  (33647, 16823), (33641, 33640), (33637, 33636), (33629, 33628), (33623, 33622), (33619, 33618), (33617, 33616),
  (33613, 33612), (33601, 33600), (33599, 16799), (33589, 33588), (33587, 33586), (33581, 33580), (33577, 33576),
  (33569, 8392), (33563, 33562), (33547, 33546), (33533, 33532), (33529, 33528), (33521, 33520), (33503, 33502),
  (33493, 33492), (33487, 33486), (33479, 33478), (33469, 33468), (33461, 33460), (33457, 33456), (33427, 33426),
  (33413, 33412), (33409, 33408), (33403, 33402), (33391, 33390), (33377, 33376), (33359, 33358), (33353, 33352),
  (33349, 33348), (33347, 33346), (33343, 33342), (33331, 11110), (33329, 33328), (33317, 33316), (33311, 16655),
  (33301, 33300), (33289, 33288), (33287, 33286), (33247, 33246), (33223, 11074), (33211, 33210), (33203, 33202),
  (33199, 16599), (33191, 33190), (33181, 11060), (33179, 33178), (33161, 33160), (33151, 33150), (33149, 33148),
  (33119, 33118), (33113, 33112), (33107, 33106), (33091, 33090), (33083, 33082), (33073, 33072), (33071, 16535),
  (33053, 33052), (33049, 16524), (33037, 33036), (33029, 33028), (33023, 33022), (33013, 33012), (32999, 32998),
  (32993, 32992), (32987, 32986), (32983, 32982), (32971, 32970), (32969, 32968), (32957, 32956), (32941, 32940),
  (32939, 32938), (32933, 32932), (32917, 32916), (32911, 32910), (32909, 32908), (32887, 32886), (32869, 32868),
  (32843, 32842), (32839, 32838), (32833, 32832), (32831, 32830), (32803, 32802), (32801, 32800), (32797, 32796),
  (32789, 32788), (32783, 32782), (32779, 32778), (32771, 32770), (32749, 32748), (32719, 32718), (32717, 32716),
  (32713, 32712), (32707, 32706), (32693, 32692), (32687, 32686), (32653, 32652), (32647, 16323), (32633, 32632),
  (32621, 32620), (32611, 32610), (32609, 32608), (32603, 32602), (32587, 32586), (32579, 32578), (32573, 32572),
  (32569, 32568), (32563, 32562), (32561, 16280), (32537, 32536), (32533, 32532), (32531, 32530), (32507, 32506),
  (32503, 32502), (32497, 32496), (32491, 32490), (32479, 16239), (32467, 32466), (32443, 32442), (32441, 32440),
  (32429, 32428), (32423, 32422), (32413, 10804), (32411, 32410), (32401, 32400), (32381, 32380), (32377, 16188),
  (32371, 32370), (32369, 16184), (32363, 32362), (32359, 32358)]
def orders12 : List (ℕ × ℕ) := [(32353, 32352), (32341, 32340), (32327, 32326), (32323, 32322), (32321, 16160), (32309, 32308), (32303, 16151),
  (32299, 32298), (32297, 32296), (32261, 32260), (32257, 16128), (32251, 32250), (32237, 32236), (32233, 32232),
  (32213, 32212), (32203, 32202), (32191, 32190), (32189, 32188), (32183, 32182), (32173, 32172), (32159, 32158),
  (32143, 16071), (32141, 32140), (32119, 32118), (32117, 32116), (32099, 32098), (32089, 4011), (32083, 32082),
  (32077, 32076), (32069, 32068), (32063, 32062), (32059, 32058), (32057, 32056), (32051, 32050), (32029, 32028),
  (32027, 32026), (32009, 32008), (32003, 32002), (31991, 31990), (31981, 31980), (31973, 31972), (31963, 31962),
  (31957, 31956), (31907, 31906), (31891, 31890), (31883, 31882), (31873, 31872), (31859, 31858), (31849, 31848),
  (31847, 31846), (31817, 15908), (31799, 31798), (31793, 31792), (31771, 31770), (31769, 31768), (31751, 31750),
  (31741, 31740), (31729, 31728), (31727, 31726), (31723, 31722), (31721, 15860), (31699, 31698), (31687, 31686),
  (31667, 31666), (31663, 31662), (31657, 31656), (31649, 31648), (31643, 31642), (31627, 31626), (31607, 31606),
  (31601, 31600), (31583, 15791), (31573, 31572), (31567, 31566), (31547, 31546), (31543, 31542), (31541, 31540),
  (31531, 31530), (31517, 31516), (31513, 31512), (31511, 31510), (31489, 31488), (31481, 15740), (31477, 31476),
  (31469, 31468), (31397, 31396), (31393, 31392), (31391, 31390), (31387, 31386), (31379, 31378), (31357, 31356),
  (31337, 31336), (31333, 31332), (31327, 31326), (31321, 31320), (31319, 31318), (31307, 31306), (31277, 31276),
  (31271, 31270), (31267, 31266), (31259, 31258), (31253, 31252), (31249, 31248), (31247, 15623), (31237, 31236),
  (31231, 31230), (31223, 15611), (31219, 31218), (31193, 15596), (31189, 31188), (31183, 15591), (31181, 31180),
  (31177, 31176), (31159, 31158), (31153, 31152), (31151, 31150), (31147, 31146), (31139, 31138), (31123, 31122),
  (31121, 31120), (31091, 31090), (31081, 31080), (31079, 31078), (31069, 31068), (31063, 31062), (31051, 31050),
  (31039, 31038), (31033, 7758), (31019, 31018), (31013, 31012), (30983, 30982), (30977, 30976), (30971, 30970),
  (30949, 30948), (30941, 30940), (30937, 30936), (30931, 30930), (30911, 15455), (30893, 30892), (30881, 7720),
  (30871, 30870), (30869, 30868), (30859, 30858), (30853, 30852), (30851, 30850), (30841, 30840), (30839, 30838),
  (30829, 30828), (30817, 30816), (30809, 15404), (30803, 30802), (30781, 30780), (30773, 30772), (30763, 30762),
  (30757, 30756), (30727, 30726), (30713, 30712), (30707, 30706), (30703, 30702), (30697, 15348), (30689, 30688),
  (30677, 30676), (30671, 30670), (30661, 30660), (30649, 30648), (30643, 30642), (30637, 30636), (30631, 15315),
  (30593, 30592), (30577, 5096), (30559, 30558), (30557, 30556), (30553, 30552), (30539, 30538), (30529, 30528),
  (30517, 30516), (30509, 30508), (30497, 30496), (30493, 30492), (30491, 30490), (30469, 30468), (30467, 30466),
  (30449, 30448), (30431, 30430), (30427, 30426), (30403, 10134), (30391, 30390), (30389, 30388), (30367, 30366),
  (30347, 30346), (30341, 30340), (30323, 30322), (30319, 30318), (30313, 30312), (30307, 30306), (30293, 30292),
  (30271, 15135), (30269, 30268), (30259, 30258), (30253, 30252), (30241, 15120), (30223, 30222), (30211, 30210),
  (30203, 30202), (30197, 30196), (30187, 30186), (30181, 30180), (30169, 30168), (30161, 30160), (30139, 30138),
  (30137, 15068), (30133, 30132), (30119, 15059), (30113, 30112), (30109, 30108), (30103, 30102), (30097, 30096),
  (30091, 30090), (30089, 30088), (30071, 30070), (30059, 30058), (30047, 30046), (30029, 30028), (30013, 30012),
  (30011, 30010), (29989, 29988), (29983, 29982), (29959, 29958), (29947, 29946), (29927, 29926), (29921, 29920),
  (29917, 29916), (29881, 29880), (29879, 29878), (29873, 29872), (29867, 29866), (29863, 29862), (29851, 29850),
  (29837, 29836), (29833, 29832), (29819, 29818), (29803, 29802), (29789, 29788), (29761, 29760), (29759, 29758),
  (29753, 29752), (29741, 29740), (29723, 29722), (29717, 29716), (29683, 29682), (29671, 14835), (29669, 29668),
  (29663, 29662), (29641, 29640), (29633, 14816), (29629, 29628)]
def orders13 : List (ℕ × ℕ) := [(29611, 29610), (29599, 14799), (29587, 29586), (29581, 29580), (29573, 29572), (29569, 7392), (29567, 29566),
  (29537, 14768), (29531, 29530), (29527, 29526), (29501, 29500), (29483, 29482), (29473, 29472), (29453, 29452),
  (29443, 29442), (29437, 29436), (29429, 29428), (29423, 29422), (29411, 29410), (29401, 14700), (29399, 14699),
  (29389, 29388), (29387, 29386), (29383, 29382), (29363, 29362), (29347, 9782), (29339, 29338), (29333, 29332),
  (29327, 29326), (29311, 29310), (29303, 29302), (29297, 29296), (29287, 29286), (29269, 29268), (29251, 29250),
  (29243, 29242), (29231, 14615), (29221, 29220), (29209, 29208), (29207, 14603), (29201, 29200), (29191, 29190),
  (29179, 29178), (29173, 29172), (29167, 14583), (29153, 29152), (29147, 29146), (29137, 29136), (29131, 29130),
  (29129, 29128), (29123, 29122), (29101, 29100), (29077, 29076), (29063, 14531), (29059, 29058), (29033, 7258),
  (29027, 29026), (29023, 29022), (29021, 29020), (29017, 14508), (29009, 14504), (28979, 28978), (28961, 14480),
  (28949, 28948), (28933, 28932), (28927, 14463), (28921, 28920), (28909, 28908), (28901, 28900), (28879, 28878),
  (28871, 28870), (28867, 28866), (28859, 28858), (28843, 28842), (28837, 28836), (28817, 28816), (28813, 28812),
  (28807, 28806), (28793, 14396), (28789, 28788), (28771, 28770), (28759, 28758), (28753, 7188), (28751, 28750),
  (28729, 28728), (28723, 28722), (28711, 28710), (28703, 28702), (28697, 14348), (28687, 28686), (28669, 28668),
  (28663, 28662), (28661, 28660), (28657, 28656), (28649, 28648), (28643, 28642), (28631, 28630), (28627, 28626),
  (28621, 9540), (28619, 28618), (28607, 28606), (28603, 28602), (28597, 28596), (28591, 28590), (28579, 28578),
  (28573, 28572), (28571, 28570), (28559, 28558), (28549, 28548), (28547, 28546), (28541, 28540), (28537, 28536),
  (28517, 28516), (28513, 28512), (28499, 28498), (28493, 28492), (28477, 28476), (28463, 28462), (28447, 28446),
  (28439, 14219), (28433, 28432), (28429, 28428), (28411, 28410), (28409, 28408), (28403, 28402), (28393, 28392),
  (28387, 28386), (28351, 28350), (28349, 28348), (28319, 28318), (28309, 28308), (28307, 28306), (28297, 28296),
  (28289, 14144), (28283, 28282), (28279, 4713), (28277, 28276), (28229, 28228), (28219, 9406), (28211, 28210),
  (28201, 28200), (28183, 28182), (28181, 28180), (28163, 28162), (28151, 28150), (28123, 28122), (28111, 28110),
  (28109, 28108), (28099, 28098), (28097, 28096), (28087, 14043), (28081, 28080), (28069, 28068), (28057, 4676),
  (28051, 28050), (28031, 28030), (28027, 28026), (28019, 28018), (28001, 28000), (27997, 27996), (27983, 27982),
  (27967, 27966), (27961, 27960), (27953, 13976), (27947, 27946), (27943, 13971), (27941, 27940), (27919, 13959),
  (27917, 27916), (27901, 27900), (27893, 27892), (27883, 27882), (27851, 27850), (27847, 27846), (27827, 27826),
  (27823, 27822), (27817, 27816), (27809, 27808), (27803, 27802), (27799, 27798), (27793, 27792), (27791, 27790),
  (27779, 27778), (27773, 27772), (27767, 13883), (27763, 27762), (27751, 13875), (27749, 27748), (27743, 27742),
  (27739, 27738), (27737, 27736), (27733, 27732), (27701, 27700), (27697, 9232), (27691, 27690), (27689, 13844),
  (27673, 27672), (27653, 27652), (27647, 27646), (27631, 27630), (27617, 13808), (27611, 27610), (27583, 27582),
  (27581, 27580), (27551, 27550), (27541, 27540), (27539, 27538), (27529, 27528), (27527, 13763), (27509, 27508),
  (27487, 27486), (27481, 27480), (27479, 27478), (27457, 27456), (27449, 13724), (27437, 27436), (27431, 13715),
  (27427, 27426), (27409, 3426), (27407, 27406), (27397, 27396), (27367, 27366), (27361, 27360), (27337, 13668),
  (27329, 13664), (27299, 27298), (27283, 27282), (27281, 13640), (27277, 27276), (27271, 13635), (27259, 27258),
  (27253, 27252), (27241, 27240), (27239, 27238), (27211, 27210), (27197, 27196), (27191, 13595), (27179, 27178),
  (27143, 27142), (27127, 27126), (27109, 27108), (27107, 27106), (27103, 13551), (27091, 27090), (27077, 27076),
  (27073, 27072), (27067, 27066), (27061, 27060), (27059, 27058), (27043, 27042), (27031, 27030), (27017, 27016),
  (27011, 27010), (26993, 26992), (26987, 26986), (26981, 5396)]
def orders14 : List (ℕ × ℕ) := [(26959, 26958), (26953, 26952), (26951, 26950), (26947, 26946), (26927, 26926), (26921, 26920), (26903, 26902),
  (26893, 8964), (26891, 26890), (26881, 13440), (26879, 13439), (26863, 26862), (26861, 26860), (26849, 13424),
  (26839, 26838), (26833, 26832), (26821, 26820), (26813, 26812), (26801, 26800), (26783, 26782), (26777, 26776),
  (26759, 13379), (26737, 13368), (26731, 26730), (26729, 26728), (26723, 26722), (26717, 26716), (26713, 13356),
  (26711, 26710), (26701, 8900), (26699, 26698), (26693, 26692), (26687, 26686), (26683, 26682), (26681, 26680),
  (26669, 26668), (26647, 26646), (26641, 26640), (26633, 26632), (26627, 26626), (26597, 26596), (26591, 13295),
  (26573, 26572), (26561, 26560), (26557, 26556), (26539, 26538), (26513, 13256), (26501, 26500), (26497, 8832),
  (26489, 13244), (26479, 4413), (26459, 26458), (26449, 26448), (26437, 26436), (26431, 26430), (26423, 26422),
  (26417, 2032), (26407, 26406), (26399, 26398), (26393, 26392), (26387, 26386), (26371, 26370), (26357, 26356),
  (26347, 26346), (26339, 26338), (26321, 26320), (26317, 8772), (26309, 26308), (26297, 26296), (26293, 26292),
  (26267, 26266), (26263, 26262), (26261, 26260), (26251, 26250), (26249, 26248), (26237, 26236), (26227, 26226),
  (26209, 26208), (26203, 26202), (26189, 26188), (26183, 13091), (26177, 26176), (26171, 26170), (26161, 26160),
  (26153, 13076), (26141, 26140), (26119, 26118), (26113, 26112), (26111, 26110), (26107, 26106), (26099, 26098),
  (26083, 26082), (26053, 26052), (26041, 26040), (26029, 26028), (26021, 26020), (26017, 26016), (26003, 26002),
  (25999, 25998), (25997, 25996), (25981, 25980), (25969, 25968), (25951, 25950), (25943, 25942), (25939, 25938),
  (25933, 25932), (25931, 25930), (25919, 25918), (25913, 25912), (25903, 4317), (25889, 25888), (25873, 12936),
  (25867, 25866), (25849, 25848), (25847, 25846), (25841, 25840), (25819, 25818), (25801, 25800), (25799, 25798),
  (25793, 25792), (25771, 25770), (25763, 25762), (25759, 25758), (25747, 25746), (25741, 25740), (25733, 25732),
  (25717, 25716), (25703, 12851), (25693, 25692), (25679, 25678), (25673, 25672), (25667, 25666), (25657, 25656),
  (25643, 25642), (25639, 12819), (25633, 25632), (25621, 25620), (25609, 25608), (25603, 25602), (25601, 12800),
  (25589, 25588), (25583, 25582), (25579, 25578), (25577, 25576), (25561, 25560), (25541, 25540), (25537, 12768),
  (25523, 25522), (25471, 12735), (25469, 25468), (25463, 25462), (25457, 25456), (25453, 25452), (25447, 25446),
  (25439, 25438), (25423, 12711), (25411, 25410), (25409, 25408), (25391, 25390), (25373, 25372), (25367, 12683),
  (25357, 25356), (25349, 25348), (25343, 25342), (25339, 25338), (25321, 25320), (25309, 25308), (25307, 25306),
  (25303, 12651), (25301, 25300), (25261, 25260), (25253, 25252), (25247, 25246), (25243, 25242), (25237, 25236),
  (25229, 25228), (25219, 25218), (25189, 25188), (25183, 25182), (25171, 25170), (25169, 25168), (25163, 25162),
  (25153, 25152), (25147, 25146), (25127, 25126), (25121, 25120), (25117, 25116), (25111, 25110), (25097, 25096),
  (25087, 12543), (25073, 25072), (25057, 12528), (25037, 25036), (25033, 25032), (25031, 25030), (25013, 25012),
  (24989, 24988), (24979, 24978), (24977, 24976), (24971, 24970), (24967, 24966), (24953, 24952), (24943, 24942),
  (24923, 24922), (24919, 24918), (24917, 24916), (24907, 24906), (24889, 4148), (24877, 24876), (24859, 24858),
  (24851, 24850), (24847, 24846), (24841, 24840), (24821, 24820), (24809, 24808), (24799, 24798), (24793, 24792),
  (24781, 24780), (24767, 24766), (24763, 24762), (24749, 24748), (24733, 24732), (24709, 24708), (24697, 24696),
  (24691, 24690), (24683, 24682), (24677, 24676), (24671, 12335), (24659, 24658), (24631, 12315), (24623, 24622),
  (24611, 24610), (24593, 24592), (24571, 24570), (24551, 24550), (24547, 24546), (24533, 24532), (24527, 12263),
  (24517, 24516), (24509, 24508), (24499, 24498), (24481, 12240), (24473, 12236), (24469, 24468), (24443, 24442),
  (24439, 24438), (24421, 24420), (24419, 24418), (24413, 24412), (24407, 24406), (24391, 12195), (24379, 24378),
  (24373, 24372), (24371, 24370), (24359, 12179), (24337, 24336)]
def orders15 : List (ℕ × ℕ) := [(24329, 24328), (24317, 24316), (24281, 24280), (24251, 24250), (24247, 24246), (24239, 12119), (24229, 24228),
  (24223, 24222), (24203, 24202), (24197, 24196), (24181, 8060), (24179, 24178), (24169, 24168), (24151, 24150),
  (24137, 12068), (24133, 24132), (24121, 24120), (24113, 24112), (24109, 24108), (24107, 24106), (24103, 24102),
  (24097, 24096), (24091, 24090), (24083, 24082), (24077, 24076), (24071, 24070), (24061, 24060), (24049, 12024),
  (24043, 24042), (24029, 24028), (24023, 24022), (24019, 24018), (24007, 24006), (24001, 24000), (23993, 5998),
  (23981, 23980), (23977, 11988), (23971, 23970), (23957, 23956), (23929, 23928), (23917, 23916), (23911, 11955),
  (23909, 23908), (23899, 23898), (23893, 23892), (23887, 11943), (23879, 23878), (23873, 23872), (23869, 23868),
  (23857, 23856), (23833, 23832), (23831, 11915), (23827, 23826), (23819, 23818), (23813, 23812), (23801, 23800),
  (23789, 23788), (23773, 23772), (23767, 23766), (23761, 23760), (23753, 23752), (23747, 23746), (23743, 11871),
  (23741, 23740), (23719, 23718), (23689, 23688), (23687, 11843), (23677, 23676), (23671, 23670), (23669, 23668),
  (23663, 11831), (23633, 23632), (23629, 23628), (23627, 23626), (23623, 11811), (23609, 23608), (23603, 23602),
  (23599, 23598), (23593, 23592), (23581, 23580), (23567, 23566), (23563, 23562), (23561, 23560), (23557, 23556),
  (23549, 23548), (23539, 23538), (23537, 23536), (23531, 23530), (23509, 23508), (23497, 23496), (23473, 11736),
  (23459, 23458), (23447, 23446), (23431, 23430), (23417, 23416), (23399, 11699), (23371, 23370), (23369, 23368),
  (23357, 23356), (23339, 23338), (23333, 23332), (23327, 11663), (23321, 11660), (23311, 23310), (23297, 11648),
  (23293, 23292), (23291, 23290), (23279, 23278), (23269, 23268), (23251, 23250), (23227, 23226), (23209, 23208),
  (23203, 23202), (23201, 23200), (23197, 23196), (23189, 23188), (23173, 23172), (23167, 23166), (23159, 23158),
  (23143, 7714), (23131, 23130), (23117, 23116), (23099, 23098), (23087, 23086), (23081, 23080), (23071, 11535),
  (23063, 11531), (23059, 23058), (23057, 23056), (23053, 23052), (23041, 23040), (23039, 23038), (23029, 23028),
  (23027, 23026), (23021, 23020), (23017, 2877), (23011, 23010), (23003, 23002), (22993, 22992), (22973, 22972),
  (22963, 22962), (22961, 11480), (22943, 22942), (22937, 22936), (22921, 22920), (22907, 22906), (22901, 22900),
  (22877, 22876), (22871, 22870), (22861, 22860), (22859, 22858), (22853, 22852), (22817, 11408), (22811, 22810),
  (22807, 22806), (22787, 22786), (22783, 22782), (22777, 22776), (22769, 22768), (22751, 22750), (22741, 22740),
  (22739, 22738), (22727, 22726), (22721, 22720), (22717, 22716), (22709, 22708), (22699, 22698), (22697, 22696),
  (22691, 22690), (22679, 11339), (22669, 22668), (22651, 22650), (22643, 22642), (22639, 22638), (22637, 22636),
  (22621, 22620), (22619, 22618), (22613, 22612), (22573, 22572), (22571, 22570), (22567, 11283), (22549, 22548),
  (22543, 11271), (22541, 22540), (22531, 22530), (22511, 22510), (22501, 22500), (22483, 22482), (22481, 22480),
  (22469, 22468), (22453, 22452), (22447, 11223), (22441, 22440), (22433, 22432), (22409, 11204), (22397, 22396),
  (22391, 11195), (22381, 22380), (22369, 22368), (22367, 22366), (22349, 22348), (22343, 22342), (22307, 22306),
  (22303, 22302), (22291, 22290), (22283, 22282), (22279, 11139), (22277, 22276), (22273, 22272), (22271, 22270),
  (22259, 22258), (22247, 22246), (22229, 22228), (22193, 22192), (22189, 22188), (22171, 22170), (22159, 22158),
  (22157, 22156), (22153, 22152), (22147, 22146), (22133, 22132), (22129, 11064), (22123, 22122), (22111, 22110),
  (22109, 22108), (22093, 22092), (22091, 22090), (22079, 22078), (22073, 11036), (22067, 22066), (22063, 11031),
  (22051, 22050), (22039, 22038), (22037, 22036), (22031, 22030), (22027, 22026), (22013, 22012), (22003, 22002),
  (21997, 21996), (21991, 21990), (21977, 21976), (21961, 10980), (21943, 21942), (21937, 21936), (21929, 21928),
  (21911, 21910), (21893, 21892), (21881, 21880), (21871, 21870), (21863, 21862), (21859, 21858), (21851, 21850),
  (21841, 5460), (21839, 10919), (21821, 21820), (21817, 21816)]
def orders16 : List (ℕ × ℕ) := [(21803, 21802), (21799, 21798), (21787, 7262), (21773, 21772), (21767, 21766), (21757, 21756), (21751, 21750),
  (21739, 21738), (21737, 21736), (21727, 21726), (21713, 21712), (21701, 21700), (21683, 21682), (21673, 21672),
  (21661, 21660), (21649, 21648), (21647, 21646), (21617, 21616), (21613, 21612), (21611, 21610), (21601, 21600),
  (21599, 21598), (21589, 21588), (21587, 21586), (21577, 7192), (21569, 10784), (21563, 21562), (21559, 21558),
  (21557, 21556), (21529, 10764), (21523, 21522), (21521, 21520), (21517, 21516), (21503, 21502), (21499, 21498),
  (21493, 21492), (21491, 21490), (21487, 21486), (21481, 7160), (21467, 21466), (21433, 21432), (21419, 21418),
  (21407, 21406), (21401, 21400), (21397, 21396), (21391, 10695), (21383, 21382), (21379, 21378), (21377, 21376),
  (21347, 21346), (21341, 21340), (21323, 21322), (21319, 21318), (21317, 21316), (21313, 21312), (21283, 21282),
  (21277, 21276), (21269, 21268), (21247, 21246), (21227, 21226), (21221, 21220), (21211, 21210), (21193, 7064),
  (21191, 21190), (21187, 21186), (21179, 21178), (21169, 7056), (21163, 21162), (21157, 21156), (21149, 21148),
  (21143, 21142), (21139, 21138), (21121, 10560), (21107, 21106), (21101, 21100), (21089, 21088), (21067, 21066),
  (21061, 21060), (21059, 21058), (21031, 10515), (21023, 21022), (21019, 21018), (21017, 21016), (21013, 21012),
  (21011, 21010), (21001, 21000), (20983, 20982), (20981, 20980), (20963, 20962), (20959, 20958), (20947, 20946),
  (20939, 20938), (20929, 20928), (20921, 20920), (20903, 20902), (20899, 20898), (20897, 20896), (20887, 10443),
  (20879, 20878), (20873, 20872), (20857, 10428), (20849, 20848), (20809, 20808), (20807, 20806), (20789, 20788),
  (20773, 20772), (20771, 20770), (20759, 20758), (20753, 20752), (20749, 20748), (20747, 20746), (20743, 20742),
  (20731, 20730), (20719, 20718), (20717, 20716), (20707, 20706), (20693, 20692), (20681, 20680), (20663, 10331),
  (20641, 20640), (20639, 20638), (20627, 20626), (20611, 20610), (20599, 10299), (20593, 20592), (20563, 20562),
  (20551, 20550), (20549, 20548), (20543, 10271), (20533, 20532), (20521, 10260), (20509, 20508), (20507, 20506),
  (20483, 20482), (20479, 20478), (20477, 20476), (20443, 20442), (20441, 20440), (20431, 10215), (20411, 20410),
  (20407, 20406), (20399, 20398), (20393, 10196), (20389, 20388), (20369, 20368), (20359, 10179), (20357, 20356),
  (20353, 20352), (20347, 20346), (20341, 20340), (20333, 20332), (20327, 10163), (20323, 20322), (20297, 10148),
  (20287, 20286), (20269, 20268), (20261, 20260), (20249, 20248), (20233, 20232), (20231, 20230), (20219, 20218),
  (20201, 20200), (20183, 20182), (20177, 20176), (20173, 20172), (20161, 20160), (20149, 20148), (20147, 20146),
  (20143, 20142), (20129, 10064), (20123, 20122), (20117, 20116), (20113, 20112), (20107, 20106), (20101, 20100),
  (20089, 20088), (20071, 20070), (20063, 20062), (20051, 20050), (20047, 10023), (20029, 20028), (20023, 10011),
  (20021, 20020), (20011, 20010), (19997, 19996), (19993, 4998), (19991, 19990), (19979, 19978), (19973, 19972),
  (19963, 19962), (19961, 9980), (19949, 19948), (19937, 19936), (19927, 9963), (19919, 19918), (19913, 19912),
  (19891, 19890), (19889, 9944), (19867, 19866), (19861, 19860), (19853, 19852), (19843, 6614), (19841, 19840), (19819, 6606),
  (19813, 19812), (19801, 19800), (19793, 19792), (19777, 4944), (19763, 19762), (19759, 9879), (19753, 19752),
  (19751, 19750), (19739, 19738), (19727, 19726), (19717, 19716), (19709, 19708), (19699, 19698), (19697, 19696),
  (19687, 9843), (19681, 9840), (19661, 19660), (19609, 19608), (19603, 19602), (19597, 19596), (19583, 19582),
  (19577, 19576), (19571, 19570), (19559, 19558), (19553, 19552), (19543, 19542), (19541, 19540), (19531, 19530),
  (19507, 19506), (19501, 19500), (19489, 19488), (19483, 19482), (19477, 19476), (19471, 19470), (19469, 19468),
  (19463, 9731), (19457, 19456), (19447, 19446), (19441, 19440), (19433, 19432), (19429, 19428), (19427, 19426),
  (19423, 9711), (19421, 19420), (19417, 19416), (19403, 19402), (19391, 19390), (19387, 19386), (19381, 19380),
  (19379, 19378), (19373, 19372), (19333, 19332)]
def orders17 : List (ℕ × ℕ) := [(19319, 19318), (19309, 19308), (19301, 19300), (19289, 9644), (19273, 9636), (19267, 19266), (19259, 19258),
  (19249, 19248), (19237, 19236), (19231, 19230), (19219, 19218), (19213, 19212), (19211, 19210), (19207, 19206),
  (19183, 19182), (19181, 19180), (19163, 19162), (19157, 19156), (19141, 19140), (19139, 19138), (19121, 19120),
  (19087, 19086), (19081, 19080), (19079, 19078), (19073, 19072), (19069, 19068), (19051, 19050), (19037, 19036),
  (19031, 9515), (19013, 19012), (19009, 19008), (19001, 19000), (18979, 18978), (18973, 18972), (18959, 9479),
  (18947, 18946), (18919, 9459), (18917, 18916), (18913, 18912), (18911, 18910), (18899, 18898), (18869, 18868),
  (18859, 18858), (18839, 18838), (18803, 18802), (18797, 18796), (18793, 18792), (18787, 18786), (18773, 18772),
  (18757, 18756), (18749, 18748), (18743, 18742), (18731, 18730), (18719, 18718), (18713, 4678), (18701, 18700),
  (18691, 18690), (18679, 9339), (18671, 18670), (18661, 18660), (18637, 18636), (18617, 9308), (18593, 9296), (18587, 18586),
  (18583, 9291), (18553, 18552), (18541, 18540), (18539, 18538), (18523, 18522), (18521, 18520), (18517, 18516),
  (18503, 18502), (18493, 18492), (18481, 18480), (18461, 18460), (18457, 18456), (18451, 18450), (18443, 18442),
  (18439, 18438), (18433, 18432), (18427, 18426), (18413, 18412), (18401, 18400), (18397, 18396), (18379, 18378),
  (18371, 18370), (18367, 18366), (18353, 18352), (18341, 18340), (18329, 18328), (18313, 9156), (18311, 18310),
  (18307, 6102), (18301, 18300), (18289, 18288), (18287, 9143), (18269, 18268), (18257, 18256), (18253, 18252),
  (18251, 18250), (18233, 18232), (18229, 18228), (18223, 6074), (18217, 18216), (18211, 18210), (18199, 18198),
  (18191, 9095), (18181, 18180), (18169, 4542), (18149, 18148), (18143, 18142), (18133, 18132), (18131, 18130),
  (18127, 18126), (18121, 18120), (18119, 18118), (18097, 9048), (18089, 18088), (18077, 18076), (18061, 18060),
  (18059, 18058), (18049, 18048), (18047, 18046), (18043, 18042), (18041, 9020), (18013, 18012), (17989, 17988),
  (17987, 17986), (17981, 17980), (17977, 17976), (17971, 17970), (17959, 17958), (17957, 17956), (17939, 17938),
  (17929, 8964), (17923, 17922), (17921, 8960), (17911, 17910), (17909, 17908), (17903, 17902), (17891, 17890),
  (17881, 17880), (17863, 17862), (17851, 17850), (17839, 8919), (17837, 17836), (17827, 17826), (17807, 8903),
  (17791, 17790), (17789, 17788), (17783, 17782), (17761, 17760), (17749, 17748), (17747, 17746), (17737, 17736),
  (17729, 17728), (17713, 17712), (17707, 17706), (17683, 17682), (17681, 17680), (17669, 17668), (17659, 5886),
  (17657, 17656), (17627, 17626), (17623, 17622), (17609, 4402), (17599, 17598), (17597, 17596), (17581, 17580),
  (17579, 17578), (17573, 17572), (17569, 17568), (17551, 17550), (17539, 17538), (17519, 8759), (17509, 17508),
  (17497, 17496), (17491, 17490), (17489, 17488), (17483, 17482), (17477, 17476), (17471, 8735), (17467, 17466),
  (17449, 17448), (17443, 17442), (17431, 17430), (17419, 5806), (17417, 17416), (17401, 17400), (17393, 17392),
  (17389, 17388), (17387, 17386), (17383, 17382), (17377, 17376), (17359, 17358), (17351, 8675), (17341, 17340),
  (17333, 17332), (17327, 17326), (17321, 17320), (17317, 17316), (17299, 17298), (17293, 17292), (17291, 17290),
  (17257, 17256), (17239, 17238), (17231, 17230), (17209, 17208), (17207, 17206), (17203, 17202), (17191, 17190),
  (17189, 17188), (17183, 8591), (17167, 17166), (17159, 17158), (17137, 8568), (17123, 17122), (17117, 17116),
  (17107, 17106), (17099, 17098), (17093, 17092), (17077, 17076), (17053, 17052), (17047, 17046), (17041, 17040),
  (17033, 4258), (17029, 17028), (17027, 17026), (17021, 17020), (17011, 17010), (16993, 16992), (16987, 16986),
  (16981, 16980), (16979, 16978), (16963, 16962), (16943, 8471), (16937, 16936), (16931, 16930), (16927, 16926),
  (16921, 16920), (16903, 16902), (16901, 16900), (16889, 16888), (16883, 16882), (16879, 16878), (16871, 3374),
  (16843, 16842), (16831, 8415), (16829, 16828), (16823, 16822), (16811, 16810), (16787, 16786), (16763, 16762),
  (16759, 16758), (16747, 16746), (16741, 16740)]
def orders18 : List (ℕ × ℕ) := [(16729, 16728), (16703, 16702), (16699, 16698), (16693, 16692), (16691, 16690), (16673, 16672), (16661, 16660),
  (16657, 8328), (16651, 16650), (16649, 16648), (16633, 8316), (16631, 8315), (16619, 16618), (16607, 8303), (16603, 16602),
  (16573, 16572), (16567, 8283), (16561, 16560), (16553, 16552), (16547, 16546), (16529, 16528), (16519, 8259),
  (16493, 16492), (16487, 16486), (16481, 16480), (16477, 16476), (16453, 16452), (16451, 16450), (16447, 16446),
  (16433, 16432), (16427, 16426), (16421, 16420), (16417, 16416), (16411, 16410), (16381, 16380), (16369, 16368),
  (16363, 16362), (16361, 4090), (16349, 16348), (16339, 16338), (16333, 16332), (16319, 16318), (16301, 16300),
  (16273, 16272), (16267, 16266), (16253, 16252), (16249, 16248), (16231, 8115), (16229, 16228), (16223, 16222),
  (16217, 16216), (16193, 16192), (16189, 16188), (16187, 16186), (16183, 16182), (16141, 16140), (16139, 16138),
  (16127, 16126), (16111, 16110), (16103, 8051), (16097, 16096), (16091, 16090), (16087, 16086), (16073, 16072),
  (16069, 16068), (16067, 16066), (16063, 8031), (16061, 16060), (16057, 16056), (16033, 16032), (16007, 8003),
  (16001, 16000), (15991, 7995), (15973, 15972), (15971, 15970), (15959, 15958), (15937, 15936), (15923, 15922),
  (15919, 15918), (15913, 15912), (15907, 15906), (15901, 15900), (15889, 15888), (15887, 15886), (15881, 15880),
  (15877, 15876), (15859, 15858), (15823, 15822), (15817, 15816), (15809, 15808), (15803, 15802), (15797, 15796),
  (15791, 15790), (15787, 15786), (15773, 15772), (15767, 15766), (15761, 15760), (15749, 15748), (15739, 15738),
  (15737, 7868), (15733, 15732), (15731, 15730), (15727, 15726), (15683, 15682), (15679, 5226), (15671, 15670),
  (15667, 15666), (15661, 15660), (15649, 15648), (15647, 15646), (15643, 15642), (15641, 15640), (15629, 15628),
  (15619, 15618), (15607, 15606), (15601, 15600), (15583, 15582), (15581, 15580), (15569, 3892), (15559, 7779),
  (15551, 15550), (15541, 15540), (15527, 15526), (15511, 15510), (15497, 15496), (15493, 15492), (15473, 15472),
  (15467, 15466), (15461, 15460), (15451, 15450), (15443, 15442), (15439, 15438), (15427, 15426), (15413, 15412),
  (15401, 15400), (15391, 7695), (15383, 15382), (15377, 15376), (15373, 15372), (15361, 15360), (15359, 15358),
  (15349, 15348), (15331, 15330), (15329, 15328), (15319, 15318), (15313, 15312), (15307, 15306), (15299, 15298),
  (15289, 7644), (15287, 15286), (15277, 15276), (15271, 5090), (15269, 15268), (15263, 7631), (15259, 15258), (15241, 7620),
  (15233, 15232), (15227, 15226), (15217, 15216), (15199, 15198), (15193, 5064), (15187, 15186), (15173, 15172),
  (15161, 15160), (15149, 15148), (15139, 15138), (15137, 15136), (15131, 15130), (15121, 15120), (15107, 15106),
  (15101, 15100), (15091, 15090), (15083, 15082), (15077, 15076), (15073, 15072), (15061, 15060), (15053, 15052),
  (15031, 15030), (15017, 15016), (15013, 15012), (14983, 14982), (14969, 14968), (14957, 14956), (14951, 14950),
  (14947, 14946), (14939, 14938), (14929, 14928), (14923, 14922), (14897, 7448), (14891, 14890), (14887, 7443),
  (14879, 14878), (14869, 14868), (14867, 14866), (14851, 14850), (14843, 14842), (14831, 14830), (14827, 14826),
  (14821, 14820), (14813, 14812), (14797, 14796), (14783, 14782), (14779, 14778), (14771, 14770), (14767, 14766),
  (14759, 7379), (14753, 3688), (14747, 14746), (14741, 14740), (14737, 3684), (14731, 4910), (14723, 14722), (14717, 14716),
  (14713, 14712), (14699, 14698), (14683, 14682), (14669, 14668), (14657, 14656), (14653, 14652), (14639, 14638),
  (14633, 14632), (14629, 14628), (14627, 14626), (14621, 14620), (14593, 4864), (14591, 7295), (14563, 14562),
  (14561, 14560), (14557, 14556), (14551, 14550), (14549, 14548), (14543, 14542), (14537, 14536), (14533, 14532),
  (14519, 14518), (14503, 7251), (14489, 14488), (14479, 2413), (14461, 14460), (14449, 14448), (14447, 14446),
  (14437, 14436), (14431, 14430), (14423, 7211), (14419, 14418), (14411, 14410), (14407, 14406), (14401, 7200),
  (14389, 14388), (14387, 14386), (14369, 14368), (14347, 14346), (14341, 14340), (14327, 14326), (14323, 14322),
  (14321, 14320)]
def orders19 : List (ℕ × ℕ) := [(14303, 14302), (14293, 4764), (14281, 14280), (14251, 14250), (14249, 7124), (14243, 14242), (14221, 14220),
  (14207, 14206), (14197, 14196), (14177, 7088), (14173, 14172), (14159, 14158), (14153, 14152), (14149, 14148),
  (14143, 7071), (14107, 14106), (14087, 7043), (14083, 14082), (14081, 14080), (14071, 14070), (14057, 7028), (14051, 14050),
  (14033, 14032), (14029, 14028), (14011, 14010), (14009, 14008), (13999, 13998), (13997, 13996), (13967, 13966),
  (13963, 13962), (13933, 13932), (13931, 13930), (13921, 13920), (13913, 6956), (13907, 13906), (13903, 13902),
  (13901, 13900), (13883, 13882), (13879, 13878), (13877, 13876), (13873, 13872), (13859, 13858), (13841, 13840),
  (13831, 6915), (13829, 13828), (13807, 13806), (13799, 13798), (13789, 13788), (13781, 13780), (13763, 13762),
  (13759, 13758), (13757, 13756), (13751, 13750), (13729, 6864), (13723, 13722), (13721, 6860), (13711, 6855), (13709, 13708),
  (13697, 13696), (13693, 13692), (13691, 13690), (13687, 13686), (13681, 13680), (13679, 13678), (13669, 13668),
  (13649, 13648), (13633, 13632), (13627, 13626), (13619, 13618), (13613, 13612), (13597, 13596), (13591, 13590),
  (13577, 13576), (13567, 13566), (13553, 13552), (13537, 13536), (13523, 13522), (13513, 13512), (13499, 13498),
  (13487, 13486), (13477, 13476), (13469, 13468), (13463, 13462), (13457, 13456), (13451, 13450), (13441, 13440),
  (13421, 13420), (13417, 13416), (13411, 13410), (13399, 13398), (13397, 13396), (13381, 13380), (13367, 13366),
  (13339, 13338), (13337, 6668), (13331, 13330), (13327, 13326), (13313, 13312), (13309, 13308), (13297, 6648),
  (13291, 13290), (13267, 13266), (13259, 13258), (13249, 13248), (13241, 6620), (13229, 13228), (13219, 4406), (13217, 6608),
  (13187, 13186), (13183, 13182), (13177, 13176), (13171, 13170), (13163, 13162), (13159, 13158), (13151, 6575),
  (13147, 13146), (13127, 13126), (13121, 13120), (13109, 13108), (13103, 6551), (13099, 13098), (13093, 13092),
  (13063, 4354), (13049, 6524), (13043, 13042), (13037, 13036), (13033, 13032), (13009, 13008), (13007, 13006),
  (13003, 13002), (13001, 13000), (12983, 12982), (12979, 12978), (12973, 12972), (12967, 12966), (12959, 12958),
  (12953, 12952), (12941, 12940), (12923, 12922), (12919, 12918), (12917, 12916), (12911, 12910), (12907, 12906),
  (12899, 12898), (12893, 12892), (12889, 12888), (12853, 12852), (12841, 12840), (12829, 12828), (12823, 6411),
  (12821, 12820), (12809, 12808), (12799, 12798), (12791, 12790), (12781, 12780), (12763, 12762), (12757, 12756),
  (12743, 12742), (12739, 12738), (12721, 12720), (12713, 3178), (12703, 2117), (12697, 12696), (12689, 12688),
  (12671, 12670), (12659, 12658), (12653, 12652), (12647, 6323), (12641, 12640), (12637, 12636), (12619, 12618),
  (12613, 12612), (12611, 12610), (12601, 12600), (12589, 12588), (12583, 12582), (12577, 12576), (12569, 3142),
  (12553, 6276), (12547, 12546), (12541, 12540), (12539, 12538), (12527, 12526), (12517, 12516), (12511, 12510),
  (12503, 12502), (12497, 12496), (12491, 12490), (12487, 12486), (12479, 12478), (12473, 12472), (12457, 6228),
  (12451, 12450), (12437, 12436), (12433, 12432), (12421, 12420), (12413, 12412), (12409, 12408), (12401, 12400),
  (12391, 12390), (12379, 12378), (12377, 12376), (12373, 12372), (12347, 12346), (12343, 12342), (12329, 12328),
  (12323, 12322), (12301, 12300), (12289, 12288), (12281, 12280), (12277, 12276), (12269, 12268), (12263, 12262),
  (12253, 12252), (12251, 12250), (12241, 12240), (12239, 6119), (12227, 12226), (12211, 12210), (12203, 12202),
  (12197, 12196), (12163, 4054), (12161, 6080), (12157, 12156), (12149, 12148), (12143, 6071), (12119, 12118), (12113, 12112),
  (12109, 12108), (12107, 12106), (12101, 12100), (12097, 6048), (12073, 12072), (12071, 12070), (12049, 12048),
  (12043, 12042), (12041, 12040), (12037, 12036), (12011, 12010), (12007, 12006), (11987, 11986), (11981, 11980),
  (11971, 11970), (11969, 11968), (11959, 5979), (11953, 5976), (11941, 11940), (11939, 11938), (11933, 11932),
  (11927, 11926), (11923, 3974), (11909, 11908), (11903, 11902), (11897, 11896), (11887, 11886), (11867, 11866)]
def orders20 : List (ℕ × ℕ) := [(11863, 11862), (11839, 11838), (11833, 11832), (11831, 11830), (11827, 11826), (11821, 11820), (11813, 11812),
  (11807, 5903), (11801, 11800), (11789, 11788), (11783, 11782), (11779, 11778), (11777, 11776), (11743, 11742),
  (11731, 11730), (11719, 11718), (11717, 11716), (11701, 11700), (11699, 11698), (11689, 11688), (11681, 11680),
  (11677, 11676), (11657, 11656), (11633, 11632), (11621, 11620), (11617, 2904), (11597, 11596), (11593, 5796),
  (11587, 11586), (11579, 11578), (11551, 11550), (11549, 11548), (11527, 11526), (11519, 11518), (11503, 11502),
  (11497, 11496), (11491, 11490), (11489, 11488), (11483, 11482), (11471, 5735), (11467, 11466), (11447, 11446),
  (11443, 11442), (11437, 11436), (11423, 5711), (11411, 11410), (11399, 11398), (11393, 5696), (11383, 11382),
  (11369, 11368), (11353, 11352), (11351, 11350), (11329, 11328), (11321, 5660), (11317, 11316), (11311, 11310),
  (11299, 11298), (11287, 11286), (11279, 11278), (11273, 11272), (11261, 11260), (11257, 11256), (11251, 11250),
  (11243, 11242), (11239, 11238), (11213, 11212), (11197, 11196), (11177, 11176), (11173, 11172), (11171, 11170),
  (11161, 11160), (11159, 11158), (11149, 3716), (11131, 11130), (11119, 11118), (11117, 11116), (11113, 11112),
  (11093, 11092), (11087, 5543), (11083, 11082), (11071, 11070), (11069, 11068), (11059, 11058), (11057, 2764),
  (11047, 11046), (11027, 11026), (11003, 11002), (10993, 10992), (10987, 10986), (10979, 10978), (10973, 10972),
  (10957, 10956), (10949, 10948), (10939, 10938), (10937, 10936), (10909, 10908), (10903, 10902), (10891, 10890),
  (10889, 10888), (10883, 10882), (10867, 10866), (10861, 10860), (10859, 10858), (10853, 10852), (10847, 10846),
  (10837, 10836), (10831, 10830), (10799, 10798), (10789, 10788), (10781, 10780), (10771, 10770), (10753, 10752),
  (10739, 10738), (10733, 10732), (10729, 10728), (10723, 10722), (10711, 10710), (10709, 10708), (10691, 10690),
  (10687, 5343), (10667, 10666), (10663, 10662), (10657, 10656), (10651, 10650), (10639, 5319), (10631, 10630),
  (10627, 10626), (10613, 10612), (10607, 10606), (10601, 10600), (10597, 10596), (10589, 10588), (10567, 10566),
  (10559, 10558), (10531, 3510), (10529, 10528), (10513, 10512), (10501, 10500), (10499, 10498), (10487, 10486),
  (10477, 10476), (10463, 10462), (10459, 10458), (10457, 10456), (10453, 10452), (10433, 10432), (10429, 10428),
  (10427, 10426), (10399, 10398), (10391, 10390), (10369, 2592), (10357, 10356), (10343, 10342), (10337, 10336),
  (10333, 10332), (10331, 10330), (10321, 10320), (10313, 5156), (10303, 10302), (10301, 10300), (10289, 10288),
  (10273, 5136), (10271, 10270), (10267, 10266), (10259, 10258), (10253, 10252), (10247, 5123), (10243, 10242), (10223, 5111),
  (10211, 10210), (10193, 10192), (10181, 10180), (10177, 10176), (10169, 10168), (10163, 10162), (10159, 10158),
  (10151, 10150), (10141, 10140), (10139, 10138), (10133, 10132), (10111, 5055), (10103, 10102), (10099, 10098),
  (10093, 10092), (10091, 10090), (10079, 5039), (10069, 10068), (10067, 10066), (10061, 10060), (10039, 10038),
  (10037, 10036), (10009, 10008), (10007, 10006), (9973, 9972), (9967, 9966), (9949, 9948), (9941, 9940), (9931, 9930),
  (9929, 9928), (9923, 9922), (9907, 9906), (9901, 9900), (9887, 4943), (9883, 9882), (9871, 9870), (9859, 9858),
  (9857, 4928), (9851, 9850), (9839, 9838), (9833, 9832), (9829, 9828), (9817, 9816), (9811, 9810), (9803, 9802),
  (9791, 9790), (9787, 9786), (9781, 3260), (9769, 4884), (9767, 9766), (9749, 9748), (9743, 9742), (9739, 9738),
  (9733, 9732), (9721, 9720), (9719, 4859), (9697, 9696), (9689, 9688), (9679, 4839), (9677, 9676), (9661, 9660),
  (9649, 9648), (9643, 9642), (9631, 3210), (9629, 9628), (9623, 4811), (9619, 9618), (9613, 9612), (9601, 9600),
  (9587, 9586), (9551, 9550), (9547, 9546), (9539, 9538), (9533, 9532), (9521, 4760), (9511, 951), (9497, 9496), (9491, 9490),
  (9479, 9478), (9473, 9472), (9467, 9466), (9463, 9462), (9461, 9460), (9439, 4719), (9437, 9436), (9433, 4716),
  (9431, 9430)]
def orders21 : List (ℕ × ℕ) := [(9421, 9420), (9419, 9418), (9413, 9412), (9403, 9402), (9397, 9396), (9391, 9390), (9377, 9376), (9371, 9370),
  (9349, 9348), (9343, 9342), (9341, 9340), (9337, 9336), (9323, 9322), (9319, 9318), (9311, 9310), (9293, 9292),
  (9283, 9282), (9281, 9280), (9277, 9276), (9257, 9256), (9241, 9240), (9239, 9238), (9227, 9226), (9221, 9220),
  (9209, 9208), (9203, 9202), (9199, 9198), (9187, 9186), (9181, 9180), (9173, 9172), (9161, 9160), (9157, 9156),
  (9151, 9150), (9137, 4568), (9133, 9132), (9127, 9126), (9109, 9108), (9103, 4551), (9091, 9090), (9067, 9066),
  (9059, 9058), (9049, 9048), (9043, 9042), (9041, 4520), (9029, 9028), (9013, 3004), (9011, 9010), (9007, 9006),
  (9001, 9000), (8999, 8998), (8971, 8970), (8969, 8968), (8963, 8962), (8951, 4475), (8941, 8940), (8933, 8932),
  (8929, 8928), (8923, 8922), (8893, 8892), (8887, 8886), (8867, 8866), (8863, 8862), (8861, 8860), (8849, 4424),
  (8839, 8838), (8837, 8836), (8831, 8830), (8821, 8820), (8819, 8818), (8807, 8806), (8803, 8802), (8783, 4391),
  (8779, 8778), (8761, 8760), (8753, 8752), (8747, 8746), (8741, 8740), (8737, 4368), (8731, 8730), (8719, 2906),
  (8713, 8712), (8707, 8706), (8699, 8698), (8693, 8692), (8689, 4344), (8681, 4340), (8677, 8676), (8669, 8668),
  (8663, 8662), (8647, 8646), (8641, 8640), (8629, 2876), (8627, 8626), (8623, 4311), (8609, 8608), (8599, 8598),
  (8597, 8596), (8581, 8580), (8573, 8572), (8563, 8562), (8543, 4271), (8539, 8538), (8537, 4268), (8527, 8526),
  (8521, 4260), (8513, 4256), (8501, 8500), (8467, 8466), (8461, 8460), (8447, 8446), (8443, 8442), (8431, 4215),
  (8429, 8428), (8423, 8422), (8419, 8418), (8389, 8388), (8387, 8386), (8377, 8376), (8369, 4184), (8363, 8362),
  (8353, 4176), (8329, 8328), (8317, 924), (8311, 8310), (8297, 4148), (8293, 8292), (8291, 8290), (8287, 4143), (8273, 8272),
  (8269, 8268), (8263, 8262), (8243, 8242), (8237, 8236), (8233, 8232), (8231, 4115), (8221, 8220), (8219, 8218),
  (8209, 8208), (8191, 1638), (8179, 8178), (8171, 8170), (8167, 8166), (8161, 8160), (8147, 8146), (8123, 8122),
  (8117, 8116), (8111, 8110), (8101, 8100), (8093, 8092), (8089, 8088), (8087, 8086), (8081, 8080), (8069, 8068),
  (8059, 8058), (8053, 8052), (8039, 4019), (8017, 8016), (8011, 8010), (8009, 8008), (7993, 7992), (7963, 7962),
  (7951, 7950), (7949, 7948), (7937, 7936), (7933, 7932), (7927, 3963), (7919, 7918), (7907, 7906), (7901, 7900),
  (7883, 7882), (7879, 7878), (7877, 7876), (7873, 7872), (7867, 7866), (7853, 7852), (7841, 7840), (7829, 7828),
  (7823, 7822), (7817, 7816), (7793, 3896), (7789, 7788), (7759, 3879), (7757, 7756), (7753, 7752), (7741, 7740),
  (7727, 3863), (7723, 2574), (7717, 7716), (7703, 7702), (7699, 7698), (7691, 7690), (7687, 7686), (7681, 3840),
  (7673, 3836), (7669, 7668), (7649, 7648), (7643, 7642), (7639, 7638), (7621, 7620), (7607, 7606), (7603, 7602),
  (7591, 3795), (7589, 7588), (7583, 7582), (7577, 7576), (7573, 7572), (7561, 3780), (7559, 3779), (7549, 7548),
  (7547, 7546), (7541, 7540), (7537, 7536), (7529, 7528), (7523, 7522), (7517, 7516), (7507, 7506), (7499, 7498),
  (7489, 7488), (7487, 7486), (7481, 7480), (7477, 7476), (7459, 7458), (7457, 3728), (7451, 7450), (7433, 7432),
  (7417, 3708), (7411, 7410), (7393, 3696), (7369, 7368), (7351, 7350), (7349, 7348), (7333, 7332), (7331, 7330),
  (7321, 7320), (7309, 7308), (7307, 7306), (7297, 7296), (7283, 7282), (7253, 7252), (7247, 7246), (7243, 7242),
  (7237, 7236), (7229, 7228), (7219, 7218), (7213, 7212), (7211, 7210), (7207, 7206), (7193, 3596), (7187, 7186),
  (7177, 7176), (7159, 3579), (7151, 7150), (7129, 7128), (7127, 7126), (7121, 3560), (7109, 7108)]
def orders22 : List (ℕ × ℕ) := [(7103, 3551), (7079, 7078), (7069, 7068), (7057, 3528), (7043, 7042), (7039, 7038), (7027, 7026), (7019, 7018),
  (7013, 7012), (7001, 3500), (6997, 6996), (6991, 6990), (6983, 6982), (6977, 6976), (6971, 6970), (6967, 6966),
  (6961, 6960), (6959, 6958), (6949, 6948), (6947, 6946), (6917, 6916), (6911, 6910), (6907, 6906), (6899, 6898),
  (6883, 6882), (6871, 6870), (6869, 6868), (6863, 6862), (6857, 3428), (6841, 1710), (6833, 3416), (6829, 6828),
  (6827, 6826), (6823, 3411), (6803, 6802), (6793, 6792), (6791, 6790), (6781, 6780), (6779, 6778), (6763, 6762),
  (6761, 6760), (6737, 6736), (6733, 6732), (6719, 3359), (6709, 6708), (6703, 6702), (6701, 6700), (6691, 6690),
  (6689, 6688), (6679, 6678), (6673, 6672), (6661, 6660), (6659, 6658), (6653, 6652), (6637, 6636), (6619, 6618),
  (6607, 3303), (6599, 6598), (6581, 6580), (6577, 6576), (6571, 6570), (6569, 6568), (6563, 6562), (6553, 6552),
  (6551, 6550), (6547, 6546), (6529, 6528), (6521, 6520), (6491, 6490), (6481, 6480), (6473, 6472), (6469, 6468),
  (6451, 6450), (6449, 6448), (6427, 6426), (6421, 6420), (6397, 6396), (6389, 6388), (6379, 6378), (6373, 6372),
  (6367, 6366), (6361, 6360), (6359, 3179), (6353, 3176), (6343, 6342), (6337, 6336), (6329, 3164), (6323, 6322),
  (6317, 6316), (6311, 6310), (6301, 6300), (6299, 6298), (6287, 6286), (6277, 6276), (6271, 3135), (6269, 6268),
  (6263, 3131), (6257, 6256), (6247, 3123), (6229, 6228), (6221, 6220), (6217, 3108), (6211, 6210), (6203, 6202),
  (6199, 6198), (6197, 6196), (6173, 6172), (6163, 6162), (6151, 6150), (6143, 6142), (6133, 6132), (6131, 6130),
  (6121, 6120), (6113, 3056), (6101, 6100), (6091, 6090), (6089, 6088), (6079, 6078), (6073, 3036), (6067, 6066),
  (6053, 6052), (6047, 6046), (6043, 6042), (6037, 6036), (6029, 6028), (6011, 6010), (6007, 6006), (5987, 5986),
  (5981, 5980), (5953, 5952), (5939, 5938), (5927, 5926), (5923, 5922), (5903, 5902), (5897, 5896), (5881, 2940),
  (5879, 5878), (5869, 5868), (5867, 5866), (5861, 5860), (5857, 5856), (5851, 5850), (5849, 5848), (5843, 5842),
  (5839, 5838), (5827, 5826), (5821, 1940), (5813, 5812), (5807, 5806), (5801, 5800), (5791, 5790), (5783, 5782),
  (5779, 5778), (5749, 5748), (5743, 2871), (5741, 5740), (5737, 2868), (5717, 5716), (5711, 5710), (5701, 5700),
  (5693, 5692), (5689, 5688), (5683, 5682), (5669, 5668), (5659, 5658), (5657, 2828), (5653, 5652), (5651, 5650),
  (5647, 5646), (5641, 5640), (5639, 5638), (5623, 5622), (5591, 5590), (5581, 5580), (5573, 5572), (5569, 5568),
  (5563, 5562), (5557, 5556), (5531, 5530), (5527, 5526), (5521, 5520), (5519, 5518), (5507, 5506), (5503, 5502),
  (5501, 5500), (5483, 5482), (5479, 5478), (5477, 5476), (5471, 5470), (5449, 5448), (5443, 5442), (5441, 544), (5437, 5436),
  (5431, 5430), (5419, 1806), (5417, 5416), (5413, 1804), (5407, 2703), (5399, 5398), (5393, 5392), (5387, 5386),
  (5381, 5380), (5351, 5350), (5347, 1782), (5333, 5332), (5323, 5322), (5309, 5308), (5303, 5302), (5297, 5296),
  (5281, 5280), (5279, 5278), (5273, 2636), (5261, 5260), (5237, 5236), (5233, 1308), (5231, 5230), (5227, 5226),
  (5209, 5208), (5197, 5196), (5189, 5188), (5179, 5178), (5171, 5170), (5167, 1722), (5153, 5152), (5147, 5146),
  (5119, 5118), (5113, 5112), (5107, 5106), (5101, 5100), (5099, 5098), (5087, 5086), (5081, 5080), (5077, 5076),
  (5059, 5058), (5051, 5050), (5039, 5038), (5023, 5022), (5021, 5020), (5011, 5010), (5009, 5008), (5003, 5002),
  (4999, 4998), (4993, 2496), (4987, 4986), (4973, 4972), (4969, 4968), (4967, 4966), (4957, 4956), (4951, 4950),
  (4943, 4942), (4937, 2468), (4933, 4932), (4931, 4930), (4919, 2459), (4909, 4908), (4903, 4902)]
def orders23 : List (ℕ × ℕ) := [(4889, 4888), (4877, 4876), (4871, 2435), (4861, 4860), (4831, 4830), (4817, 4816), (4813, 4812), (4801, 4800),
  (4799, 4798), (4793, 4792), (4789, 4788), (4787, 4786), (4783, 4782), (4759, 2379), (4751, 4750), (4733, 4732),
  (4729, 4728), (4723, 4722), (4721, 4720), (4703, 4702), (4691, 4690), (4679, 4678), (4673, 4672), (4663, 4662),
  (4657, 4656), (4651, 4650), (4649, 2324), (4643, 4642), (4639, 2319), (4637, 4636), (4621, 4620), (4603, 4602),
  (4597, 4596), (4591, 2295), (4583, 4582), (4567, 4566), (4561, 2280), (4549, 4548), (4547, 4546), (4523, 4522),
  (4519, 4518), (4517, 4516), (4513, 4512), (4507, 4506), (4493, 4492), (4483, 4482), (4481, 4480), (4463, 4462),
  (4457, 4456), (4451, 4450), (4447, 4446), (4441, 4440), (4423, 4422), (4421, 4420), (4409, 4408), (4397, 4396),
  (4391, 4390), (4373, 4372), (4363, 4362), (4357, 4356), (4349, 4348), (4339, 4338), (4337, 4336), (4327, 4326),
  (4297, 4296), (4289, 4288), (4283, 4282), (4273, 4272), (4271, 4270), (4261, 4260), (4259, 4258), (4253, 4252),
  (4243, 4242), (4241, 4240), (4231, 2115), (4229, 4228), (4219, 4218), (4217, 4216), (4211, 4210), (4201, 4200),
  (4177, 4176), (4159, 4158), (4157, 4156), (4153, 2076), (4139, 4138), (4133, 4132), (4129, 4128), (4127, 4126),
  (4111, 4110), (4099, 4098), (4093, 4092), (4091, 4090), (4079, 4078), (4073, 4072), (4057, 4056), (4051, 4050),
  (4049, 4048), (4027, 1342), (4021, 4020), (4019, 4018), (4013, 4012), (4007, 2003), (4003, 4002), (4001, 2000),
  (3989, 3988), (3967, 3966), (3947, 3946), (3943, 3942), (3931, 3930), (3929, 1964), (3923, 3922), (3919, 1959),
  (3917, 3916), (3911, 3910), (3907, 3906), (3889, 1944), (3881, 3880), (3877, 3876), (3863, 1931), (3853, 3852),
  (3851, 3850), (3847, 3846), (3833, 3832), (3823, 3822), (3821, 3820), (3803, 3802), (3797, 3796), (3793, 3792),
  (3779, 3778), (3769, 3768), (3767, 3766), (3761, 3760), (3739, 3738), (3733, 3732), (3727, 3726), (3719, 3718),
  (3709, 3708), (3701, 3700), (3697, 3696), (3691, 3690), (3677, 3676), (3673, 3672), (3671, 3670), (3659, 3658),
  (3643, 3642), (3637, 3636), (3631, 3630), (3623, 3622), (3617, 3616), (3613, 3612), (3607, 3606), (3593, 3592),
  (3583, 1791), (3581, 3580), (3571, 3570), (3559, 3558), (3557, 3556), (3547, 3546), (3541, 3540), (3539, 3538),
  (3533, 3532), (3529, 1764), (3527, 3526), (3517, 3516), (3511, 3510), (3499, 3498), (3491, 3490), (3469, 3468),
  (3467, 3466), (3463, 1731), (3461, 3460), (3457, 3456), (3449, 3448), (3433, 3432), (3413, 3412), (3407, 1703),
  (3391, 1695), (3389, 3388), (3373, 1124), (3371, 3370), (3361, 3360), (3359, 1679), (3347, 3346), (3343, 3342),
  (3331, 3330), (3329, 3328), (3323, 3322), (3319, 3318), (3313, 1656), (3307, 3306), (3301, 3300), (3299, 3298),
  (3271, 3270), (3259, 3258), (3257, 3256), (3253, 3252), (3251, 3250), (3229, 3228), (3221, 3220), (3217, 1608),
  (3209, 3208), (3203, 3202), (3191, 1595), (3187, 3186), (3181, 3180), (3169, 3168), (3167, 1583), (3163, 3162),
  (3137, 3136), (3121, 3120), (3119, 3118), (3109, 3108), (3089, 1544), (3083, 3082), (3079, 3078), (3067, 3066),
  (3061, 3060), (3049, 1524), (3041, 3040), (3037, 3036), (3023, 1511), (3019, 3018), (3011, 3010), (3001, 3000),
  (2999, 2998), (2971, 990), (2969, 1484), (2963, 2962), (2957, 2956), (2953, 2952), (2939, 2938), (2927, 2926), (2917, 2916),
  (2909, 2908), (2903, 1451), (2897, 2896), (2887, 1443), (2879, 2878), (2861, 2860), (2857, 2856), (2851, 2850),
  (2843, 2842), (2837, 2836), (2833, 2832), (2819, 2818), (2803, 2802), (2801, 1400), (2797, 2796), (2791, 1395),
  (2789, 2788), (2777, 2776), (2767, 2766), (2753, 2752), (2749, 2748), (2741, 2740), (2731, 2730)]
def orders24 : List (ℕ × ℕ) := [(2729, 2728), (2719, 2718), (2713, 2712), (2711, 2710), (2707, 2706), (2699, 2698), (2693, 2692), (2689, 1344),
  (2687, 1343), (2683, 2682), (2677, 2676), (2671, 2670), (2663, 2662), (2659, 2658), (2657, 664), (2647, 2646), (2633, 2632),
  (2621, 2620), (2617, 2616), (2609, 2608), (2593, 2592), (2591, 2590), (2579, 2578), (2557, 2556), (2551, 2550),
  (2549, 2548), (2543, 2542), (2539, 2538), (2531, 2530), (2521, 1260), (2503, 2502), (2477, 2476), (2473, 2472),
  (2467, 2466), (2459, 2458), (2447, 2446), (2441, 2440), (2437, 2436), (2423, 2422), (2417, 2416), (2411, 2410),
  (2399, 1199), (2393, 2392), (2389, 2388), (2383, 1191), (2381, 2380), (2377, 2376), (2371, 2370), (2357, 2356),
  (2351, 2350), (2347, 2346), (2341, 2340), (2339, 2338), (2333, 2332), (2311, 2310), (2309, 2308), (2297, 2296),
  (2293, 2292), (2287, 2286), (2281, 2280), (2273, 2272), (2269, 2268), (2267, 2266), (2251, 2250), (2243, 2242),
  (2239, 2238), (2237, 2236), (2221, 2220), (2213, 2212), (2207, 2206), (2203, 2202), (2179, 2178), (2161, 2160),
  (2153, 2152), (2143, 2142), (2141, 2140), (2137, 2136), (2131, 2130), (2129, 2128), (2113, 2112), (2111, 2110),
  (2099, 2098), (2089, 2088), (2087, 2086), (2083, 2082), (2081, 2080), (2069, 2068), (2063, 2062), (2053, 2052),
  (2039, 2038), (2029, 2028), (2027, 2026), (2017, 1008), (2011, 2010), (2003, 2002), (1999, 1998), (1997, 1996),
  (1993, 1992), (1987, 1986), (1979, 1978), (1973, 1972), (1951, 975), (1949, 1948), (1933, 1932), (1931, 1930), (1913, 956),
  (1907, 1906), (1901, 1900), (1889, 1888), (1879, 939), (1877, 1876), (1873, 1872), (1871, 1870), (1867, 1866), (1861, 1860),
  (1847, 1846), (1831, 1830), (1823, 1822), (1811, 1810), (1801, 1800), (1789, 1788), (1787, 1786), (1783, 891), (1777, 1776),
  (1759, 1758), (1753, 1752), (1747, 1746), (1741, 1740), (1733, 1732), (1723, 1722), (1721, 1720), (1709, 1708),
  (1699, 1698), (1697, 1696), (1693, 1692), (1669, 1668), (1667, 1666), (1663, 1662), (1657, 552), (1637, 1636), (1627, 1626),
  (1621, 1620), (1619, 1618), (1613, 1612), (1609, 1608), (1607, 1606), (1601, 1600), (1597, 1596), (1583, 1582),
  (1579, 1578), (1571, 1570), (1567, 783), (1559, 779), (1553, 1552), (1549, 1548), (1543, 1542), (1531, 1530), (1523, 1522),
  (1511, 755), (1499, 1498), (1493, 1492), (1489, 1488), (1487, 1486), (1483, 1482), (1481, 1480), (1471, 1470), (1459, 1458),
  (1453, 1452), (1451, 1450), (1447, 1446), (1439, 1438), (1433, 1432), (1429, 1428), (1427, 1426), (1423, 474), (1409, 1408),
  (1399, 699), (1381, 1380), (1373, 1372), (1367, 1366), (1361, 1360), (1327, 1326), (1321, 1320), (1319, 1318), (1307, 1306),
  (1303, 1302), (1301, 1300), (1297, 648), (1291, 1290), (1289, 1288), (1283, 1282), (1279, 1278), (1277, 1276), (1259, 1258),
  (1249, 1248), (1237, 1236), (1231, 1230), (1229, 1228), (1223, 611), (1217, 1216), (1213, 1212), (1201, 600), (1193, 1192),
  (1187, 1186), (1181, 1180), (1171, 1170), (1163, 1162), (1153, 1152), (1151, 1150), (1129, 1128), (1123, 1122),
  (1117, 1116), (1109, 1108), (1103, 1102), (1097, 1096), (1093, 1092), (1091, 1090), (1087, 1086), (1069, 1068),
  (1063, 1062), (1061, 1060), (1051, 1050), (1049, 1048), (1039, 1038), (1033, 516), (1031, 1030), (1021, 1020), (1019, 1018),
  (1013, 1012), (1009, 1008), (997, 996), (991, 990), (983, 982), (977, 488), (971, 970), (967, 966), (953, 952), (947, 946),
  (941, 940), (937, 936), (929, 928), (919, 918), (911, 182), (907, 906), (887, 886), (883, 882), (881, 880), (877, 876),
  (863, 862), (859, 858), (857, 856), (853, 852), (839, 419), (829, 828), (827, 826), (823, 822)]
def orders25 : List (ℕ × ℕ) := [(821, 820), (811, 810), (809, 404), (797, 796), (787, 786), (773, 772), (769, 768), (761, 760), (757, 756), (751, 750),
  (743, 742), (739, 738), (733, 732), (727, 363), (719, 359), (709, 708), (701, 700), (691, 690), (683, 682), (677, 676),
  (673, 672), (661, 660), (659, 658), (653, 652), (647, 646), (643, 642), (641, 640), (631, 630), (619, 618), (617, 616),
  (613, 612), (607, 303), (601, 600), (599, 598), (593, 592), (587, 586), (577, 576), (571, 570), (569, 284), (563, 562),
  (557, 556), (547, 546), (541, 540), (523, 522), (521, 520), (509, 508), (503, 251), (499, 498), (491, 490), (487, 486),
  (479, 239), (467, 466), (463, 462), (461, 460), (457, 456), (449, 224), (443, 442), (439, 73), (433, 432), (431, 430),
  (421, 420), (419, 418), (409, 408), (401, 400), (397, 396), (389, 388), (383, 382), (379, 378), (373, 372), (367, 183),
  (359, 358), (353, 352), (349, 348), (347, 346), (337, 336), (331, 330), (317, 316), (313, 312), (311, 310), (307, 306),
  (293, 292), (283, 282), (281, 280), (277, 276), (271, 135), (269, 268), (263, 262), (257, 256), (251, 250), (241, 240),
  (239, 238), (233, 232), (229, 228), (227, 226), (223, 222), (211, 210), (199, 99), (197, 196), (193, 192), (191, 190),
  (181, 180), (179, 178), (173, 172), (167, 83), (163, 162), (157, 156), (151, 150), (149, 148), (139, 138), (137, 68),
  (131, 130), (127, 126), (113, 56), (109, 108), (107, 106), (103, 51), (101, 100), (97, 96), (89, 88), (83, 82), (79, 78),
  (73, 72), (71, 70), (67, 66), (59, 58), (53, 52), (47, 23), (43, 42), (41, 40), (37, 36), (31, 30), (29, 28), (23, 22),
  (19, 18), (17, 16), (13, 12), (11, 10)]

def orders : List (ℕ × ℕ) :=
  orders0 ++ (orders1 ++ (orders2 ++ (orders3 ++ (orders4 ++ (orders5 ++ (orders6 ++ (orders7 ++ (orders8 ++ (orders9 ++ (
  orders10 ++ (orders11 ++ (orders12 ++ (orders13 ++ (orders14 ++ (orders15 ++ (orders16 ++ (orders17 ++ (orders18 ++ (
  orders19 ++ (orders20 ++ (orders21 ++ (orders22 ++ (orders23 ++ (orders24 ++ (orders25)))))))))))))))))))))))))

end NumPrime
