import Verif.Props.RandReach
import Mathlib.FieldTheory.Finite.Basic
import Mathlib.GroupTheory.OrderOfElement

/-! # The bit sizes for which `gen_safe_prime_exact` can return -/

namespace NumPrime

/-- Pocklington's criterion with one large prime factor `q` of `n - 1` and the base 2 -/
theorem pocklington {q n : ℕ} (hq : q.Prime) (hn : 1 < n) (hd : q ∣ n - 1) (hlt : n < (q + 1) ^ 2) (h1 : powm 2 (n - 1) n = 1)
    (h2 : Nat.gcd (powm 2 ((n - 1) / q) n + (n - 1)) n = 1) : n.Prime := by
  by_contra hc
  have hp := Nat.minFac_prime (n := n) (by omega)
  have hpn := Nat.minFac_dvd n
  have hsq := Nat.minFac_sq_le_self (by omega) hc
  set p := n.minFac
  have : Fact p.Prime := ⟨hp⟩
  have key : ∀ e, ((powm 2 e n : ℕ) : ZMod p) = 2 ^ e := by
    intro e
    have := congrArg (ZMod.castHom hpn (ZMod p)) (powm_cast 2 e n)
    rw [map_natCast, map_pow, map_natCast] at this
    exact this
  obtain ⟨m, hm⟩ := hd
  have hdiv : (n - 1) / q = m := by rw [hm, Nat.mul_div_cancel_left _ hq.pos]
  have hb1 : ((2 : ZMod p) ^ m) ^ q = 1 := by
    rw [← pow_mul, mul_comm, ← hm, ← key, h1]; simp
  have hb2 : (2 : ZMod p) ^ m ≠ 1 := by
    intro h
    have h3 : ((powm 2 ((n - 1) / q) n + (n - 1) : ℕ) : ZMod p) = 0 := by
      have hn0 : ((n : ℕ) : ZMod p) = 0 := (ZMod.natCast_eq_zero_iff _ _).mpr hpn
      rw [Nat.cast_add, key, hdiv, h, Nat.cast_sub (by omega), hn0]; simp
    have h4 := Nat.dvd_gcd ((ZMod.natCast_eq_zero_iff _ _).mp h3) hpn
    rw [h2] at h4
    exact hp.one_lt.ne' (Nat.dvd_one.mp h4)
  have : Fact q.Prime := ⟨hq⟩
  have hord := orderOf_eq_prime hb1 hb2
  have hb0 : (2 : ZMod p) ^ m ≠ 0 := by
    intro h
    rw [h, zero_pow hq.ne_zero] at hb1
    exact zero_ne_one hb1
  have := orderOf_dvd_of_pow_eq_one (ZMod.pow_card_sub_one_eq_one hb0)
  rw [hord] at this
  have := Nat.le_of_dvd (by have := hp.two_le; omega) this
  have : q + 1 ≤ p := by have := hp.two_le; omega
  have := Nat.pow_le_pow_left this 2
  omega

/-- the numbers of `l`, each certified by the one before it -/
def chainOk : ℕ → List ℕ → Bool
  | _, [] => true
  | q, n :: l => decide (1 < n) && ((n - 1) % q == 0) && decide (n < (q + 1) ^ 2) && (powm 2 (n - 1) n == 1) &&
      (Nat.gcd (powm 2 ((n - 1) / q) n + (n - 1)) n == 1) && chainOk n l

theorem chainOk_prime : ∀ (l : List ℕ) {q : ℕ}, q.Prime → chainOk q l = true → ∀ x ∈ l, x.Prime
  | [], _, _, _, x, hx => by simp at hx
  | n :: l, q, hq, h, x, hx => by
    simp only [chainOk, Bool.and_eq_true, decide_eq_true_eq, beq_iff_eq] at h
    obtain ⟨⟨⟨⟨⟨h1, h2⟩, h3⟩, h4⟩, h5⟩, h6⟩ := h
    have hn := pocklington hq h1 (Nat.dvd_of_mod_eq_zero h2) h3 h4 h5
    rcases List.mem_cons.mp hx with rfl | hx
    · exact hn
    · exact chainOk_prime l hn h6 x hx

/-- trial division -/
def plainPrime (q : ℕ) : Bool := decide (1 < q) && (List.range q).all fun m => decide (m < 2) || decide (q % m ≠ 0)

theorem plainPrime_prime {q : ℕ} (h : plainPrime q = true) : q.Prime := by
  simp only [plainPrime, Bool.and_eq_true, decide_eq_true_eq, List.all_eq_true, List.mem_range, Bool.or_eq_true] at h
  rw [Nat.prime_def_lt]
  refine ⟨h.1, fun m hm hd => ?_⟩
  have h0 : m ≠ 0 := by rintro rfl; have := Nat.eq_zero_of_zero_dvd hd; omega
  rcases h.2 m hm with h | h
  · omega
  · exact absurd (Nat.mod_eq_zero_of_dvd hd) h

/-- for every bit size from 3 to 128 a small prime and a chain of certified primes that ends with `(s - 1) / 2` and `s` -/
def safeCerts : List (ℕ × List ℕ) :=
  [(2, [5]),
   (5, [11]),
   (11, [23]),
   (23, [47]),
   (41, [83]),
   (83, [167]),
   (131, [263]),
   (281, [563]),
   (593, [1187]),
   (107, [1499, 2999]),
   (137, [2741, 5483]),
   (439, [4391, 8783]),
   (827, [11579, 23159]),
   (617, [30851, 61703]),
   (577, [36929, 73859]),
   (523, [115061, 230123]),
   (743, [1487, 261713, 523427]),
   (743, [1487, 466919, 933839]),
   (883, [3533, 727799, 1455599]),
   (619, [2477, 1922153, 3844307]),
   (751, [4507, 2343641, 4687283]),
   (887, [5323, 6281141, 12562283]),
   (599, [11981, 14832479, 29664959]),
   (661, [14543, 18964073, 37928147]),
   (863, [31069, 37966319, 75932639]),
   (521, [16673, 108374501, 216749003]),
   (983, [64879, 164922419, 329844839]),
   (941, [47051, 416777759, 833555519]),
   (977, [117241, 770038889, 1540077779]),
   (911, [98389, 1770214889, 3540429779]),
   (617, [140677, 3528741869, 7057483739]),
   (857, [210823, 6864396881, 13728793763]),
   (937, [419777, 11974558703, 23949117407]),
   (947, [482971, 28099252781, 56198505563]),
   (761, [1523, 1014319, 47601990671, 95203981343]),
   (809, [1619, 692933, 110975991683, 221951983367]),
   (911, [1823, 1513091, 148164896903, 296329793807]),
   (1019, [2039, 1859569, 492395275511, 984790551023]),
   (919, [3677, 2720981, 623540005961, 1247080011923]),
   (619, [2477, 2526541, 1888836998519, 3777673997039]),
   (883, [3533, 7504093, 3252829209083, 6505658418167]),
   (601, [3607, 6377177, 7493029922753, 14986059845507]),
   (751, [4507, 12926077, 10544705834291, 21089411668583]),
   (569, [6829, 11663933, 31339238381051, 62678476762103]),
   (787, [4723, 19288733, 67678377477101, 135356754954203]),
   (691, [6911, 17553941, 106272647158343, 212545294316687]),
   (587, [10567, 47974181, 242159849123873, 484319698247747]),
   (647, [9059, 56419453, 441882007968959, 883764015937919]),
   (643, [10289, 91798459, 627176986121573, 1254353972243147]),
   (571, [9137, 76695979, 2180283226188233, 4360566452376467]),
   (521, [18757, 242302927, 2569755807444851, 5139511614889703]),
   (941, [30113, 265295531, 8300935334716091, 16601870669432183]),
   (691, [20731, 299977571, 13685583343668563, 27371166687337127]),
   (727, [20357, 407872853, 26780750432433269, 53561500864866539]),
   (827, [41351, 832230227, 42650459243084531, 85300918486169063]),
   (947, [41669, 1000889381, 86533612964090321, 173067225928180643]),
   (541, [64921, 1237394261, 258877985510338289, 517755971020676579]),
   (521, [41681, 1484510497, 329566466740319621, 659132933480639243]),
   (739, [79813, 2514428753, 940515824189770043, 1881031648379540087]),
   (839, [120817, 2483272619, 2133661512388058879, 4267323024776117759]),
   (643, [123457, 5764207331, 3882479426827970981, 7764958853655941963]),
   (577, [71549, 4543218403, 4987914253876459721, 9975828507752919443]),
   (947, [178037, 10900137289, 11013357036821117579, 22026714073642235159]),
   (1021, [220537, 13387919123, 33796911743598526469, 67593823487197052939]),
   (673, [209977, 28840340951, 65275541067673903619, 130551082135347807239]),
   (613, [248879, 24188052253, 120626407112818704743, 241252814225637409487]),
   (587, [304067, 36308032337, 171323370252073473173, 342646740504146946347]),
   (997, [352939, 48409113241, 330984474656688251621, 661968949313376503243]),
   (587, [285283, 68943201479, 1049679073663826974061, 2099358147327653948123]),
   (739, [390193, 75609258383, 2326814491954162434569, 4653628983908324869139]),
   (683, [1367, 560471, 171544479913, 3428711214950152782551, 6857422429900305565103]),
   (683, [1367, 978773, 217459870049, 8153279171574254517869, 16306558343148509035739]),
   (641, [1283, 887837, 457630254629, 18829609546046905219199, 37659219092093810438399]),
   (593, [1187, 932983, 332464760119, 23390364111894582730181, 46780728223789165460363]),
   (761, [1523, 1784957, 764796955877, 42886980041723326742111, 85773960083446653484223]),
   (641, [1283, 1495979, 652187004841, 90680246875114944107783, 181360493750229888215567]),
   (743, [1487, 1412651, 1342272727181, 174452681257385650282253, 348905362514771300564507]),
   (641, [1283, 1439527, 1384917103729, 454643276767114869118739, 909286553534229738237479]),
   (727, [2909, 3775883, 2703909816301, 1049745628950564298948049, 2099491257901128597896099]),
   (853, [3413, 3017093, 3665442148957, 2073143342540387559074543, 4146286685080775118149087]),
   (709, [2837, 3421423, 7657384173611, 4618645735238537617184753, 9237291470477075234369507]),
   (919, [3677, 3669647, 6297914235047, 7055409882904325758677821, 14110819765808651517355643]),
   (673, [2693, 6064637, 14006982649393, 18058556681599562151843101, 36117113363199124303686203]),
   (883, [3533, 7525291, 10757177725771, 32621583985318936163323133, 65243167970637872326646267]),
   (641, [3847, 8186417, 18141247427507, 44073524704670967268313093, 88147049409341934536626187]),
   (727, [2909, 6498707, 18909378739799, 102123573693199193937121349, 204247147386398387874242699]),
   (557, [4457, 12274579, 67631923774523, 292622604344138743062139133, 585245208688277486124278267]),
   (1013, [6079, 13604803, 64591550412707, 363791132839143975958092449, 727582265678287951916184899]),
   (769, [7691, 9782953, 82966817786563, 1107786667214765949427572203, 2215573334429531898855144407]),
   (571, [5711, 14334611, 124547873149933, 1898168887941250309260805313, 3796337775882500618521610627]),
   (761, [6089, 28983641, 176495070327553, 3655347915936901282050779639, 7310695831873802564101559279]),
   (751, [4507, 19199821, 209415366019793, 9467889127911750804724572089, 18935778255823501609449144179]),
   (821, [6569, 18012199, 287935700261207, 18137225304828357597498080213, 36274450609656715194996160427]),
   (821, [6569, 29494811, 508693347960437, 29344805048785089176733620831, 58689610097570178353467241663]),
   (1009, [12109, 51366379, 1119901198294139, 42417853413978612210282696143, 84835706827957224420565392287]),
   (877, [15787, 43729991, 766978650409343, 84327193120190254572188603303, 168654386240380509144377206607]),
   (883, [10597, 64005881, 1508433126126863, 221674520686559676934148966891, 443349041373119353868297933783]),
   (877, [15787, 45277117, 1354078469584289, 526729268895358178634172577219, 1053458537790716357268345154439]),
   (937, [9371, 72250411, 4377928254559199, 947828048485706967590363741813, 1895656096971413935180727483627]),
   (613, [13487, 116230967, 2919349951945601, 2065966767702423319644228338873, 4131933535404846639288456677747]),
   (1013, [12157, 109607513, 6765170146088063, 3257202774073944369655908435539, 6514405548147888739311816871079]),
   (761, [9133, 83292961, 5107555686673337, 7868604099497602669499840629211, 15737208198995205338999681258423]),
   (991, [21803, 244411631, 15658067384222231, 15414549533044382527028521925123, 30829099066088765054057043850247]),
   (859, [29207, 249252539, 13841530380639007, 23269088996794608395212820202269, 46538177993589216790425640404539]),
   (701, [25237, 200280833, 19976998869611689, 73878623351166633709199492781749, 147757246702333267418398985563499]),
   (1019, [32609, 172566829, 23948574651851609, 138504835599951403931127349103801, 277009671199902807862254698207603]),
   (577, [31159, 446259199, 47911223894378927, 173124256314474848012526560618681, 346248512628949696025053121237363]),
   (673, [26921, 520006037, 59279981009789681, 436393265143945342851528049336079, 872786530287890685703056098672159]),
   (701, [21031, 374898607, 85094622279952949, 1240719596933209176213728835047453, 2481439193866418352427457670094907]),
   (661, [31729, 459118631, 101616316147173887, 2570093187262204766845977699999239, 5140186374524409533691955399998479]),
   (727, [63977, 873797867, 151014596953101851, 4385763047009976936270412259096411, 8771526094019953872540824518192823]),
   (991, [45587, 1060991839, 190899179440361191, 8226145420028960614590102550507013, 16452290840057921229180205101014027]),
   (751, [61583, 1046418337, 299152736269809329, 13504691235897031613062479666542849, 27009382471794063226124959333085699]),
   (857, [51421, 1045183247, 410170519853411927, 27631226557228291038813845736853451, 55262453114456582077627691473706903]),
   (919, [36761, 1248256517, 804796073521346177, 55400674169624765654502721289310449, 110801348339249531309005442578620899]),
   (947, [41669, 1318407161, 801690497708618729, 95976656501551946998541433455159249, 191953313003103893997082866910318499]),
   (977, [64483, 2055975973, 1478369560927482859, 304582094447823594908322880359373949, 609164188895647189816645760718747899]),
   (709, [45377, 1805460077, 1167676585327108723, 532461557299876755684920749859855501, 1064923114599753511369841499719711003]),
   (643, [99023, 3897743327, 3399599701373492879, 1023447185763877195837371794876979809, 2046894371527754391674743589753959619]),
   (811, [90833, 3056893783, 2684975431402890217, 1749833352742971724219096707716759219, 3499666705485943448438193415433518439]),
   (797, [82889, 3214766977, 5468494764959669831, 3349122101783871189204259657801896863, 6698244203567742378408519315603793727]),
   (853, [76771, 2651670341, 6159032049370359001, 6949438227503958806140326029657232983, 13898876455007917612280652059314465967]),
   (659, [104123, 4513732051, 13002875884312781813, 12540014573493424172921162631484161413, 25080029146986848345842325262968322827]),
   (1009, [125117, 5662044719, 17283348869550765931, 33208011557696488618947739036853057033, 66416023115392977237895478073706114067]),
   (769, [106123, 5564453383, 19385783329273693729, 51649950656024940216860403663947001473, 103299901312049880433720807327894002947]),
   (709, [70901, 4562479351, 20802911662960306219, 93313396551022243573992806703283631579, 186626793102044487147985613406567263159])]

/-- the last two numbers of the chain are `h` and `2 h + 1`, and the latter has `bits` bits -/
def certOk (bits : ℕ) (c : ℕ × List ℕ) : Bool :=
  plainPrime c.1 && chainOk c.1 c.2 && decide (2 ≤ (c.1 :: c.2).length) &&
    ((c.1 :: c.2).reverse[0]! == 2 * (c.1 :: c.2).reverse[1]! + 1) &&
    decide (2 ^ (bits - 1) ≤ (c.1 :: c.2).reverse[0]!) && decide ((c.1 :: c.2).reverse[0]! < 2 ^ bits)

theorem certOk_safe {bits : ℕ} {c : ℕ × List ℕ} (h : certOk bits c = true) :
    ∃ s : ℕ, s.Prime ∧ ((s - 1) / 2).Prime ∧ 2 ^ (bits - 1) ≤ s ∧ s < 2 ^ bits := by
  simp only [certOk, Bool.and_eq_true, decide_eq_true_eq, beq_iff_eq] at h
  obtain ⟨⟨⟨⟨⟨h1, h2⟩, h3⟩, h4⟩, h5⟩, h6⟩ := h
  have hq := plainPrime_prime h1
  have hall : ∀ x ∈ c.1 :: c.2, x.Prime := by
    intro x hx
    rcases List.mem_cons.mp hx with rfl | hx
    · exact hq
    · exact chainOk_prime _ hq h2 x hx
  have hmem : ∀ i < 2, ((c.1 :: c.2).reverse[i]!).Prime := by
    intro i hi
    have hl : i < (c.1 :: c.2).reverse.length := by rw [List.length_reverse]; omega
    rw [getElem!_pos _ i hl]
    exact hall _ (List.mem_reverse.mp (List.getElem_mem hl))
  refine ⟨_, hmem 0 (by norm_num), ?_, h5, h6⟩
  rw [h4, Nat.add_sub_cancel, Nat.mul_div_cancel_left _ (by norm_num)]
  exact hmem 1 (by norm_num)

theorem safeCerts_ok : ∀ i < 126, certOk (i + 3) safeCerts[i]! = true := by decide +kernel

/-- there are safe primes of every bit size from 3 to 128 -/
theorem exists_safe {bits : ℕ} (h3 : 3 ≤ bits) (h128 : bits ≤ 128) :
    ∃ s : ℕ, s.Prime ∧ ((s - 1) / 2).Prime ∧ 2 ^ (bits - 1) ≤ s ∧ s < 2 ^ bits := by
  have := certOk_safe (safeCerts_ok (bits - 3) (by omega))
  rwa [show bits - 3 + 3 = bits by omega] at this

/-- `gen_prime_exact(1)` always returns 2, `gen_prime_exact(2)` always 3 -/
theorem exact_tiny (bld : Build) (config : Option PrimalityTestConfig) (src : RandSource) (fuel k : ℕ) {bits : ℕ} (h0 : 0 < bits)
    (h2 : bits ≤ 2) :
    (∀ b, PrimWidth b → ∃ p ≤ 3, 2 ≤ p ∧ genPrimeExactPrim bld src b (fuel + 1) bits k = .ok (p, k + 1)) ∧
    (∃ p ≤ 3, 2 ≤ p ∧ genPrimeExact128 bld src config (fuel + 1) bits k = .ok (p, k + 1)) ∧
    (∃ p ≤ 3, 2 ≤ p ∧ genPrimeExactBig bld src config (fuel + 1) bits k = .ok (p, k + 1)) := by
  obtain rfl | rfl : bits = 1 ∨ bits = 2 := by omega
  · obtain ⟨g1, g2, g3⟩ := (C60_gen_prime_exceeds bld).2 src config fuel k
    have hd : ∀ b, 1 ≤ b → ∀ v, drawExact b 1 v = drawBits b 1 v := by
      intro b hb v
      rw [drawBits_eq (by omega) hb, drawExact_eq (by omega) hb, pow_zero, Nat.or_assoc, Nat.or_self]
    refine ⟨fun b hb => ⟨2, by norm_num, le_rfl, ?_⟩, ⟨2, by norm_num, le_rfl, ?_⟩, ⟨2, by norm_num, le_rfl, ?_⟩⟩
    · rw [genPrimeExactPrim]
      simp only [hd b (by unfold PrimWidth at hb; omega)]
      exact g1 b hb
    · rw [genPrimeExact128]
      simp only [hd 128 (by norm_num)]
      exact g2
    · rw [genPrimeExactBig]
      simp only [show csub 1 1 = Res.ok 0 from rfl, Res.mapR_ok, Nat.shiftLeft_zero, Nat.or_assoc, Nat.or_self]
      exact g3
  · obtain ⟨g1, g2, g3⟩ := C109_gen_prime_exact_two_bits bld config src fuel k
    exact ⟨fun b hb => ⟨3, le_rfl, by norm_num, g1 b hb⟩, ⟨3, le_rfl, by norm_num, g2⟩, ⟨3, le_rfl, by norm_num, g3⟩⟩

theorem half_one {p : ℕ} (h : p ≤ 3) (h2 : 2 ≤ p) : p >>> 1 = 1 := by rw [Nat.shiftRight_eq_div_pow]; omega

/-- **C120** (finding) `gen_safe_prime_exact(1)` and `gen_safe_prime_exact(2)` never return, for any type and any stream of
random words: no number of attempts is enough -/
theorem C120_safe_prime_exact_diverges (bld : Build) (src : RandSource) (fuel : ℕ) {bits : ℕ} (h0 : 0 < bits) (h2 : bits ≤ 2) :
    ∀ attempts k,
    (∀ b, PrimWidth b → genSafePrimeExactPrim bld src b (fuel + 1) bits attempts k = .timeout) ∧
    genSafePrimeExact128 bld src (fuel + 1) bits attempts k = .timeout ∧
    genSafePrimeExactBig bld src (fuel + 1) bits attempts k = .timeout
  | 0, k => ⟨fun _ _ => rfl, rfl, rfl⟩
  | f + 1, k => by
    obtain ⟨i1, i2, i3⟩ := C120_safe_prime_exact_diverges bld src fuel h0 h2 f (k + 1)
    obtain ⟨e1, ⟨p, hp, hp', e2⟩, ⟨p', hq, hq', e3⟩⟩ := exact_tiny bld (some .strict) src fuel k h0 h2
    refine ⟨fun b hb => ?_, ?_, ?_⟩
    · obtain ⟨p, hp, hp', e⟩ := e1 b hb
      rw [genSafePrimeExactPrim, e, Res.bind_ok]
      simp only [half_one hp hp', (isPrime64_one_three bld).1, Bool.false_eq_true, if_false]
      exact i1 b hb
    · rw [genSafePrimeExact128, e2, Res.bind_ok]
      simp only [half_one hp hp', (testMint_one_three bld src (some .strict) (k + 1)).1, Res.bind_ok, Bool.false_eq_true, if_false]
      exact i2
    · rw [genSafePrimeExactBig, e3, Res.bind_ok]
      simp only [half_one hq hq', (testPlain_one_three bld none src (some .strict) (k + 1)).1, Res.bind_ok, Bool.false_eq_true, if_false]
      exact i3

/-- **C120** `u8` to `u64`: for some stream of random words `gen_safe_prime_exact(bits)` returns, if and only if `bits` is at
least 3 and at most the size of the type -/
theorem C120_safe_prime_exact_sizes (bld : Build) (b : ℕ) (hb : PrimWidth b) (fuel bits : ℕ) (h0 : 0 < bits) :
    (∃ (src : RandSource) (attempts k s k' : ℕ), genSafePrimeExactPrim bld src b (fuel + 1) bits attempts k = .ok (s, k')) ↔
      3 ≤ bits ∧ bits ≤ b := by
  constructor
  · rintro ⟨src, f, k, s, k', h⟩
    constructor
    · by_contra hc
      rw [(C120_safe_prime_exact_diverges bld src fuel h0 (by omega) f k).1 b hb] at h
      cases h
    · by_contra hc
      cases f with
      | zero => cases h
      | succ f =>
        rw [genSafePrimeExactPrim, genPrimeExactPrim, if_pos (by omega)] at h
        cases h
  · rintro ⟨h3, hle⟩
    have hb64 : b ≤ 64 := by unfold PrimWidth at hb; omega
    obtain ⟨s, hs, hs', hlo, hhi⟩ := exists_safe h3 (by omega)
    exact ⟨⟨fun _ => s * 2 ^ (b - bits), fun _ _ => []⟩, 1, 0, s, 1,
      (C109_gen_safe_prime_prim bld b hb bits s hle hs hs' hhi _ fuel 0 0 rfl).2 hlo⟩

theorem draws_good : GoodDraws fun _ => [5, 7, 11] := by
  intro t x hx
  simp only [List.mem_cons, List.not_mem_nil, or_false] at hx
  omega

/-- **C120** `u128`: for some stream `gen_safe_prime_exact(bits)` returns, if and only if `bits` is from 3 to 128 -/
theorem C120_safe_prime_exact_sizes_u128 (bld : Build) (fuel bits : ℕ) (h0 : 0 < bits) :
    (∃ (src : RandSource) (attempts k s k' : ℕ), genSafePrimeExact128 bld src (fuel + 1) bits attempts k = .ok (s, k')) ↔
      3 ≤ bits ∧ bits ≤ 128 := by
  constructor
  · rintro ⟨src, f, k, s, k', h⟩
    constructor
    · by_contra hc
      rw [(C120_safe_prime_exact_diverges bld src fuel h0 (by omega) f k).2.1] at h
      cases h
    · by_contra hc
      cases f with
      | zero => cases h
      | succ f =>
        rw [genSafePrimeExact128, genPrimeExact128, if_pos (by omega)] at h
        cases h
  · rintro ⟨h3, hle⟩
    obtain ⟨s, hs, hs', hlo, hhi⟩ := exists_safe h3 hle
    have hstd : StdWidth (some 128) := Or.inr ⟨128, by simp, rfl⟩
    have h128 := lt_of_lt_of_le hhi (Nat.pow_le_pow_right (by norm_num) hle)
    exact ⟨⟨fun _ => s * 2 ^ (128 - bits), fun _ _ => [5, 7, 11]⟩, 1, 0, s, 1,
      (C109_gen_safe_prime_u128 bld bits s hle hs hs' hhi _ fuel 0 0 rfl (fun _ => draws_good)
        (strict_returns hstd (lt_fits h128)) (strict_returns hstd (lt_fits (by omega)))).2 hlo⟩

/-- **C120** `BigUint`: for sizes up to 128, some stream makes `gen_safe_prime_exact(bits)` return if and only if `bits` is at
least 3. (Whether safe primes of every larger size exist is not known.) -/
theorem C120_safe_prime_exact_sizes_big (bld : Build) (fuel bits : ℕ) (h0 : 0 < bits) (h128 : bits ≤ 128) :
    (∃ (src : RandSource) (attempts k s k' : ℕ), genSafePrimeExactBig bld src (fuel + 1) bits attempts k = .ok (s, k')) ↔
      3 ≤ bits := by
  constructor
  · rintro ⟨src, f, k, s, k', h⟩
    by_contra hc
    rw [(C120_safe_prime_exact_diverges bld src fuel h0 (by omega) f k).2.2] at h
    cases h
  · intro h3
    obtain ⟨s, hs, hs', hlo, hhi⟩ := exists_safe h3 h128
    exact ⟨⟨fun _ => s, fun _ _ => [5, 7, 11]⟩, 1, 0, s, 1,
      (C109_gen_safe_prime_big bld bits s hs hs' hhi _ fuel 0 0 rfl (fun _ => draws_good)
        (strict_returns (Or.inl rfl) rfl) (strict_returns (Or.inl rfl) rfl)).2 hlo⟩

-- a `u8` of three bits: the word 191 gives the safe prime 5
example : genSafePrimeExactPrim .big (constSource 191) 8 1 3 1 0 = .ok (5, 1) := by decide +kernel
example : genSafePrimeExactPrim .small (constSource 191) 8 5 2 100 0 = .timeout :=
  (C120_safe_prime_exact_diverges .small (constSource 191) 4 (bits := 2) (by norm_num) (by norm_num) 100 0).1 8 (Or.inl rfl)

end NumPrime
