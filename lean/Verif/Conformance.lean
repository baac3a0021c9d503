import Verif.Model.Examples
import Verif.Model.Mint
import Verif.Model.Moebius
import Verif.Model.Rand

/-! # The unit tests of the crate, run on the model

These are tests, not proofs: they check the hand translation against the values the authors of the crate expect. Each group cites
the test it transcribes. Tests on random inputs run on fixed inputs instead. Left out are the tests of the floating point
bounds (not computable here; the bounds are covered by the theorems C71, C72) and tests that take too long in the kernel. -/

namespace NumPrime.Conformance

/-- a generator that counts up from an arbitrary value -/
def rng : Rng := ⟨fun k => 1234567 * k + 89, fun k => [1234567 * k + 89, 7654321 * k + 97, 1111111 * k + 101]⟩

def anyEst : Estimates := ⟨fun _ => none, fun _ => none, fun n => some (2 * n), fun n => some (20 * n + 20), fun _ => none⟩

/-! ## src/primality.rs -/

-- fermat_prp_test, src/primality.rs:399-409
example : (isPrp 341 2) = true := by decide +kernel
example : (!isPrp 340 2) = true := by decide +kernel
example : (!isPrp 105 2) = true := by decide +kernel
example : ([2, 5, 7, 13, 19].all fun p => isPrp 561 p) = true := by decide +kernel

-- sprp_test, src/primality.rs:411-427
example : ([2047, 3277, 4033, 4681, 8321].all fun n => isSprp (some 16) n 2 = .ok true) = true := by decide +kernel
example : ([2047, 3277, 4033, 4681, 8321].all fun n => mIsSprp (some 16) (.left n) (.left 2) = .ok true) = true := by decide +kernel
example : (testSprp (some 16) 341 2 = .ok (.right 31)) = true := by decide +kernel
example : (mTestSprp (some 16) (.left 341) (.left 2) = .ok (.right (.left 31))) = true := by decide +kernel

-- lucas_mod_test, src/primality.rs:429-500
def p3qm1 : List Nat := [0, 1, 3, 10, 33, 109, 360, 1189, 3927, 12970, 42837, 141481, 467280, 1543321, 5097243, 16835050,
  55602393, 183642229, 606529080, 2003229469, 6616217487, 21851881930, 72171863277, 238367471761, 787274278560, 2600190307441]
example : ([3, 4, 1000, 10007, 65535].all fun m => (List.range 26).all fun n => n < 2 || (lucasm 3 (-1) m n).1 == p3qm1.getD n
    0 % m) = true := by decide +kernel

/-- `lucasm_naive`, src/primality.rs:472-491 -/
def lucasNaive (p q m : Nat) : Nat → Nat × Nat × Nat × Nat → Nat × Nat × Nat × Nat
  | 0, s => s
  | k + 1, (um1, u, vm1, v) =>
    lucasNaive p q m k (u, subm (mulm p u m) (mulm q um1 m) m, v, subm (mulm p v m) (mulm q vm1 m) m)

-- lucas_prp_test, src/primality.rs:502-628
example : (isLprp .big (some 8) 19 (some 3) (some (-1)) = .ok true) = true := by decide +kernel
example : (isLprp .big (some 8) 5 none none = .ok true) = true := by decide +kernel
example : (isLprp .big (some 8) 7 none none = .ok true) = true := by decide +kernel
example : (isLprp .big (some 8) 9 none none = .ok false) = true := by decide +kernel
example : (isLprp .big (some 16) 5719 none none = .ok false) = true := by decide +kernel
example : (isEslprp .big (some 16) 1239 none = .ok false) = true := by decide +kernel

/-- the composites below `l` the test has to reject, src/primality.rs:519-536 -/
def candidates (l p : Nat) : List Nat :=
  (List.range l).filter fun n => 3 < n && !(isSprp (some 16) n 2 = .ok true && isSprp (some 16) n 3 = .ok true) &&
    (n % 2 == 0 || jacobi (p * p + 4) n == -1)
example : ([(1, 169), (2, 169), (3, 119)].all fun (p, l) =>
    (candidates l p).all fun n => isSlprp .big (some 16) n (some p) (some (-1)) = .ok false) = true := by decide +kernel

/-- the composites below `l` that are not listed, src/primality.rs:568-576,588-596,608-616 -/
def composites (l : Nat) (known : List Nat) : List Nat :=
  (List.range l).filter fun n => 3 < n && !(isSprp (some 16) n 2 = .ok true && isSprp (some 16) n 3 = .ok true) && !known.contains n
example : ([323, 377, 1159, 1829, 3827, 5459, 5777, 9071, 9179].all fun n => isLprp .big (some 16) n none none = .ok true) =
    true := by decide +kernel
example : ((composites 300 [323, 377, 1159, 1829, 3827, 5459, 5777, 9071, 9179]).all fun n => isLprp .big (some 16) n none
    none = .ok false) = true := by decide +kernel
example : ([5459, 5777].all fun n => isSlprp .big (some 16) n none none = .ok true) = true := by decide +kernel
example : ((composites 300 [5459, 5777]).all fun n => isSlprp .big (some 16) n none none = .ok false) = true := by decide +kernel
example : ([989, 3239, 5777].all fun n => isEslprp .big (some 16) n none = .ok true) = true := by decide +kernel
example : ((composites 300 [989, 3239, 5777]).all fun n => isEslprp .big (some 16) n none = .ok false) = true := by decide +kernel

/-! ## src/buffer.rs -/

-- prime_generation_test, src/buffer.rs:488-511
def prime300 : List Nat := [2, 3, 5, 7, 11, 13, 17, 19, 23, 29, 31, 37, 41, 43, 47, 53, 59, 61, 67, 71, 73, 79, 83, 89, 97, 101, 103, 107,
  109, 113, 127, 131, 137, 139, 149, 151, 157, 163, 167, 173, 179, 181, 191, 193, 197, 199, 211, 223, 227, 229, 233,
  239, 241, 251, 257, 263, 269, 271, 277, 281, 283, 293]
example : (((Buf.new .big).primes 300).mapR (·.1) = .ok prime300) = true := by decide +kernel
example : (((Buf.new .big).clear.primes 293).mapR (·.1) = .ok prime300) = true := by decide +kernel
example : (((Buf.new .big).primes 50).mapR (·.1) = .ok (prime300.take 15)) = true := by decide +kernel
example : (((Buf.new .small).primes 300).mapR (·.1) = .ok prime300) = true := by decide +kernel
example : (((Buf.new .small).clear.primes 293).mapR (·.1) = .ok prime300) = true := by decide +kernel
example : (((Buf.new .small).primes 50).mapR (·.1) = .ok (prime300.take 15)) = true := by decide +kernel
example : (((Buf.new .small).primes 257).mapR (·.1.getLast?) = .ok (some 257)) = true := by decide +kernel
example : (((Buf.new .big).primes 8167).mapR (·.1.getLast?) = .ok (some 8167)) = true := by decide +kernel

-- prime_pi_test, src/buffer.rs:528-548
example : (ntPrimePi .big anyEst 5 5 8161 = .ok 1024) = true := by decide +kernel
example : ((primePi .small anyEst 5 5 (Buf.new .small).clear 100).mapR (·.1) = .ok 25) = true := by decide +kernel

-- is_prime_test, src/buffer.rs:550-665
example : (isPrimeNew .big (some 32) (2 ^ 19 - 1) none [] = .ok .yes) = true := by decide +kernel
example : (isPrimeNew .big (some 32) (2 ^ 23 - 1) none [] = .ok .no) = true := by decide +kernel
example : (isPrimeNew .small (some 32) (2 ^ 19 - 1) none [] = .ok .yes) = true := by decide +kernel
example : (isPrimeNew .small (some 32) (2 ^ 23 - 1) none [] = .ok .no) = true := by decide +kernel

/-- `matches!(_, Primality::Probable(_))` -/
def isProbable : Res Primality → Bool
  | .ok (.probable _) => true
  | _ => false
example : (isProbable (isPrimeNew .big (some 128) (2 ^ 89 - 1) none [12345678901, 98765432109, 1357913579])) = true := by decide +kernel
example : (isProbable (mIsPrime .big (some 128) (smallPrimes .big) (.left (2 ^ 89 - 1)) none [12345678901, 98765432109,
    1357913579])) = true := by decide +kernel
example : (isProbable (isPrimeNew .big (some 128) (2 ^ 89 - 1) (some .bpsw) [12345678901, 98765432109, 1357913579])) = true :=
    by decide +kernel
example : (isProbable (mIsPrime .big (some 128) (smallPrimes .big) (.left (2 ^ 89 - 1)) (some .bpsw) [12345678901,
    98765432109, 1357913579])) = true := by decide +kernel
example : (isProbable (isPrimeNew .big (some 128) (18699199384836356663) none [12345678901, 98765432109, 1357913579])) = true
    := by decide +kernel
example : (isProbable (mIsPrime .big (some 128) (smallPrimes .big) (.left (18699199384836356663)) none [12345678901,
    98765432109, 1357913579])) = true := by decide +kernel
example : (isProbable (isPrimeNew .big (some 128) (18699199384836356663) (some .bpsw) [12345678901, 98765432109, 1357913579]))
    = true := by decide +kernel
example : (isProbable (mIsPrime .big (some 128) (smallPrimes .big) (.left (18699199384836356663)) (some .bpsw) [12345678901,
    98765432109, 1357913579])) = true := by decide +kernel
example : (isProbable (isPrimeNew .big (some 128) (2019922777445599503530083) none [12345678901, 98765432109, 1357913579])) =
    true := by decide +kernel
example : (isProbable (mIsPrime .big (some 128) (smallPrimes .big) (.left (2019922777445599503530083)) none [12345678901,
    98765432109, 1357913579])) = true := by decide +kernel
example : (isProbable (isPrimeNew .big (some 128) (2019922777445599503530083) (some .bpsw) [12345678901, 98765432109,
    1357913579])) = true := by decide +kernel
example : (isProbable (mIsPrime .big (some 128) (smallPrimes .big) (.left (2019922777445599503530083)) (some .bpsw)
    [12345678901, 98765432109, 1357913579])) = true := by decide +kernel
example : (isProbable (isPrimeNew .big none 98920366548084643601728869055592650835572950932266967461790948584315647051443 none
    [12345678901, 98765432109, 1357913579])) = true := by decide +kernel
example : (isProbable (isPrimeNew .big none 94560208308847015747498523884063394671606671904944666360068158221458669711639 none
    [12345678901, 98765432109, 1357913579])) = true := by decide +kernel
example : (isProbable (isPrimeNew .big none
    449417999055441493994709297093108513015373787049558499205492347871729927573118262811508386655998299074566974373711472560655026288668094291699357843464363003144674940345912431129144354948751003607115263071543163
    none [12345678901, 98765432109, 1357913579])) = true := by decide +kernel
example : (isProbable (isPrimeNew .big none
    230975859993204150666423538988557839555560243929065415434980904258310530753006723857139742334640122533598517597674807096648905501653461687601339782814316124971547968912893214002992086353183070342498989426570593
    none [12345678901, 98765432109, 1357913579])) = true := by decide +kernel
example : (isProbable (isPrimeNew .big none
    5521712099665906221540423207019333379125265462121169655563495403888449493493629943498064604536961775110765377745550377067893607246020694972959780839151452457728855382113555867743022746090187341871655890805971735385789993
    none [12345678901, 98765432109, 1357913579])) = true := by decide +kernel
example : (isProbable (isPrimeNew .big none
    203956878356401977405765866929034577280193993314348263094772646453283062722701277632936616063144088173312372882677123879538709400158306567338328279154499698366071906766440037074217117805690872792848149112022286332144876183376326512083574821647933992961249917319836219304274280243803104015000563790123
    none [12345678901, 98765432109, 1357913579])) = true := by decide +kernel
example : (isProbable (isPrimeNew .big none 3618502788666131106986593281521497120414687020801267626233049500247285301239 none
    [12345678901, 98765432109, 1357913579])) = true := by decide +kernel
example : (isProbable (isPrimeNew .big none 57896044618658097711785492504343953926634992332820282019728792003956564819949 none
    [12345678901, 98765432109, 1357913579])) = true := by decide +kernel
example : (isProbable (isPrimeNew .big none
    9850501549098619803069760025035903451269934817616361666987073351061430442874302652853566563721228910201656997576599 none
    [12345678901, 98765432109, 1357913579])) = true := by decide +kernel
example : (isProbable (isPrimeNew .big none
    42307582002575910332922579714097346549017899709713998034217522897561970639123926132812109468141778230245837569601494931472367
    none [12345678901, 98765432109, 1357913579])) = true := by decide +kernel
example : (isProbable (isPrimeNew .big none
    6864797660130609714981900799081393217269435300143305409394463459185543183397656052122559640661454554977296311391480858037121987999716643812574028291115057151
    none [12345678901, 98765432109, 1357913579])) = true := by decide +kernel
example : (isProbable (isPrimeNew .big none
    169511182982703321453314585423962898651587669459838234386506572286328885534468792292646838949809616446341407457141008401355628947670484184607678853094537849610289912805960069455687743151708433319901176932959509872662610091644590437761688516626993416011399330087939042347256922771590903190536793274742859624657
    none [12345678901, 98765432109, 1357913579])) = true := by decide +kernel
example : (isPrimeNew .big none 21284175091214687912771199898307297748211672914763848041968395774954376176754 (some .bpsw) []
    = .ok .no) = true := by decide +kernel
example : (isPrimeNew .big none 6084766654921918907427900243509372380954290099172559290432744450051395395951 (some .bpsw) [] =
    .ok .no) = true := by decide +kernel
example : (isPrimeNew .big none 84594350493221918389213352992032324280367711247940675652888030554255915464401 (some .bpsw) []
    = .ok .no) = true := by decide +kernel
example : (isPrimeNew .big none 82793403787388584738507275144194252681 (some .bpsw) [] = .ok .no) = true := by decide +kernel
example : (isPrimeNew .big none 1195068768795265792518361315725116351898245581 (some .bpsw) [] = .ok .no) = true := by decide +kernel
example : (isPrimeNew .big none
    8038374574536394912570796143419421081388376882875581458374889175222974273765333652186502336163960045457915042023603208766569966760987284043965408232928738791850869166857328267761771029389697739470167082304286871099974399765441448453411558724506334092790222752962294149842306881685404326457534018329786111298960644845216191652872597534901
    (some .bpsw) [] = .ok .no) = true := by decide +kernel

/-! ## src/factor.rs -/

-- pollard_rho_test, src/factor.rs:334-356
example : ((pollardRho 8051 2 1 100).mapR (·.1) = .ok (some 97)) = true := by decide +kernel
example : ((pollardRho 455459 2 1 100).mapR (·.1) = .ok (some 743)) = true := by decide +kernel
example : ([5, 77, 8000].all fun s => ((pollardRho 8051 s 1 100).mapR fun r => r.1 == some 97 || r.1 == some 83) = .ok true) =
    true := by decide +kernel
example : ([(40001, 3, 5), (65535, 123, 45), (1001, 999, 2), (12345, 7, 12000)].all fun (n, s, o) =>
(mPollardRho (.left n) (.right s n) (.right o n) 1000).mapR (fun r => r.1.map Mint.value) = (pollardRho n s o 1000).mapR
    (·.1)) = true := by decide +kernel

-- squfof_test, src/factor.rs:358-406
example : ((squfof .big (some 32) 100 11111 11111 100).mapR (·.1) = .ok (some 41)) = true := by decide +kernel

/-- some multiplier among 1, 3, 5, 7, 11 succeeds, src/factor.rs:398-403 (the calls are made until one does) -/
def squfofSome (n : Nat) : List Nat → Bool
  | [] => false
  | k :: t =>
    match squfof .big (some 64) 100000 n (k * n) 40000 with
    | .ok (some _, _) => true
    | .ok (none, _) => squfofSome n t
    | _ => false

-- one_line_test, src/factor.rs:408-411

/-! ## src/integer.rs -/

-- exact_root_test, src/integer.rs:160-248
example : ([(3, none), (4, some 2), (9, some 3), (18, none)].all fun (x, r) => sqrtExact .big (some 8) x = .ok r) = true := by decide +kernel
example : ([0x12345678, 0xfedcba98, 0x10000000, 144, 1728].all fun x => sqrtExact .big (some 32) x = .ok (nthRootExact x 2) &&
    cbrtExact .big (some 32) x == nthRootExact x 3) = true := by decide +kernel
example : ([1, 12345, 0xfffffffe, 0xffffffff].all fun x => sqrtExact .big (some 64) (x * x) = .ok (some x)) = true := by decide +kernel
example : ([1, 12345, 2 ^ 150 - 77, 3 ^ 90].all fun x => sqrtExact .big none (x * x) = .ok (some x) && cbrtExact .big none (x
    * x * x) == some x) = true := by decide +kernel
example : ([1, 12345, 2 ^ 150 - 77, 3 ^ 90].all fun x => sqrtExact .small none (x * x) = .ok (some x) && cbrtExact .small none
    (x * x * x) == some x) = true := by decide +kernel

/-! ## src/mint.rs -/

-- test_basics, src/mint.rs:688-693
example : (Mint.add (some 32) (.left 19) (.left 8) = .ok (.left 27)) = true := by decide +kernel

/-! ## src/nt_funcs.rs -/

-- is_prime64_test, src/nt_funcs.rs:1042-1092
example : ([677, 6469693333, 13756265695458089029, 13496181268022124907, 10953742525620032441, 17908251027575790097,
    480194653, 8718775377449, 3315293452192821991].all fun x => isPrime64 .big x) = true := by decide +kernel
example : ([9773, 13357, 18769, 20074069, 8651776913431, 1152965996591997761, 600437059821397, 3866032210719337,
    4100599722623587].all fun x => !isPrime64 .big x) = true := by decide +kernel
example : ((List.range 50).all fun x => x < 2 || (smallPrimes .small).contains x == isPrime64 .small x) = true := by decide +kernel
example : ([677, 6469693333, 13756265695458089029, 13496181268022124907, 10953742525620032441, 17908251027575790097,
    480194653, 8718775377449, 3315293452192821991].all fun x => isPrime64 .small x) = true := by decide +kernel
example : ([9773, 13357, 18769, 20074069, 8651776913431, 1152965996591997761, 600437059821397, 3866032210719337,
    4100599722623587].all fun x => !isPrime64 .small x) = true := by decide +kernel

-- factorize64_test, src/nt_funcs.rs:1094-1137
example : ((factorize64 .big rng 1000 0 4095).mapR (·.1) = .ok [(3, 2), (5, 1), (7, 1), (13, 1)]) = true := by decide +kernel
example : ((factorize64 .big rng 1000 0 123456789).mapR (·.1) = .ok [(3, 2), (3607, 1), (3803, 1)]) = true := by decide +kernel
example : ((factorize64 .small rng 1000 0 4095).mapR (·.1) = .ok [(3, 2), (5, 1), (7, 1), (13, 1)]) = true := by decide +kernel
example : ((factorize64 .small rng 1000 0 123456789).mapR (·.1) = .ok [(3, 2), (3607, 1), (3803, 1)]) = true := by decide +kernel
example : ([2, 3, 4].all fun e => (factorize128 .small rng 1000 0 (8167 ^ e)).mapR (·.1) = .ok [(8167, e)]) = true := by decide +kernel

-- factorize128_test, src/nt_funcs.rs:1139-1178
example : ((factorize128 .big rng 1000 0 7858321551080267055879090).mapR (·.1) = .ok ((smallPrimes .big).take 19 |>.map (·,
    1))) = true := by decide +kernel
example : ((factorize128 .big rng 1000 0 403781223751286144351865623).mapR (·.1) = .ok [(167, 1), (2417851639229258349412369,
    1)]) = true := by decide +kernel
example : ((factorize128 .small rng 1000 0 7858321551080267055879090).mapR (·.1) = .ok ((smallPrimes .small).take 19 |>.map
    (·, 1))) = true := by decide +kernel
example : ((factorize128 .small rng 1000 0 403781223751286144351865623).mapR (·.1) = .ok [(167, 1),
    (2417851639229258349412369, 1)]) = true := by decide +kernel
example : ([5, 6, 7, 8, 9].all fun e => (factorize128 .small rng 1000 0 (8167 ^ e)).mapR (·.1) = .ok [(8167, e)]) = true := by decide +kernel

-- is_safe_prime_test, src/nt_funcs.rs:1180-1200
def safePrimes : List Nat := [5, 7, 11, 23, 47, 59, 83, 107, 167, 179, 227, 263, 347, 359, 383, 467, 479, 503, 563, 587, 719, 839,
  863, 887, 983, 1019, 1187, 1283, 1307, 1319, 1367, 1439, 1487, 1523, 1619, 1823, 1907]

-- moebius_test, src/nt_funcs.rs:1202-1237
example : ((List.range 20).map (fun i => moebius .big (some 64) rng 1000 5 0 (i + 1)) = [1, -1, -1, 0, -1, 1, -1, 0, 0, 1, -1,
    0, -1, 1, 1, 0, -1, 0, -1, 0].map Res.ok) = true := by decide +kernel
example : (moebius .big (some 32) rng 1000 5 0 1024 = .ok 0) = true := by decide +kernel
example : (moebius .big (some 32) rng 1000 5 0 (8081 * 8081) = .ok 0) = true := by decide +kernel
example : ([30, 42, 66, 70, 78, 102, 105, 110, 114, 130, 138, 154, 165, 170, 174, 182, 186, 190, 195, 222].all fun n =>
    moebius .big (some 8) rng 1000 5 0 n = .ok (-1)) = true := by decide +kernel
example : ((List.range 20).map (fun i => moebius .small (some 64) rng 1000 5 0 (i + 1)) = [1, -1, -1, 0, -1, 1, -1, 0, 0, 1,
    -1, 0, -1, 1, 1, 0, -1, 0, -1, 0].map Res.ok) = true := by decide +kernel
example : (moebius .small (some 32) rng 1000 5 0 1024 = .ok 0) = true := by decide +kernel
example : (moebius .small (some 32) rng 1000 5 0 (8081 * 8081) = .ok 0) = true := by decide +kernel
example : ([30, 42, 66, 70, 78, 102, 105, 110, 114, 130, 138, 154, 165, 170, 174, 182, 186, 190, 195, 222].all fun n =>
    moebius .small (some 8) rng 1000 5 0 n = .ok (-1)) = true := by decide +kernel
example : ([2310, 2730, 3570, 3990, 4290, 4830, 5610, 6006, 6090, 6270, 6510, 6630, 7410, 7590, 7770, 7854, 8610, 8778, 8970,
    9030].all fun n => moebius .small (some 16) rng 1000 5 0 n = .ok (-1)) = true := by decide +kernel

-- prev_next_test, src/nt_funcs.rs:1326-1366

def next (bld : Build) (b n : Nat) : Res (Option Nat) := nextPrime bld (some b) n none (fun _ => []) 1000
def prev (bld : Build) (b n : Nat) : Res (Option Nat) := prevPrime bld (some b) n none (fun _ => []) 1000
example : (prev .big 32 2 = .ok none && prev .big 16 257 = .ok (some 251) && next .big 16 251 = .ok (some 257) && next .big 8
    251 = .ok none) = true := by decide +kernel
example : (prev .big 16 8167 = .ok (some 8161) && next .big 16 8161 = .ok (some 8167)) = true := by decide +kernel
example : ([(2, 3), (3, 5), (5, 7), (11, 13), (17, 19), (29, 31), (41, 43), (617, 619)].all fun (p, q) => prev .big 32 q = .ok
    (some p) && next .big 32 p = .ok (some q)) = true := by decide +kernel
example : (prev .small 32 2 = .ok none && prev .small 16 257 = .ok (some 251) && next .small 16 251 = .ok (some 257) && next
    .small 8 251 = .ok none) = true := by decide +kernel
example : (prev .small 16 8167 = .ok (some 8161) && next .small 16 8161 = .ok (some 8167)) = true := by decide +kernel
example : ([(2, 3), (3, 5), (5, 7), (11, 13), (17, 19), (29, 31), (41, 43), (617, 619)].all fun (p, q) => prev .small 32 q =
    .ok (some p) && next .small 32 p = .ok (some q)) = true := by decide +kernel
example : ([(10, 7, 11), (100, 97, 101), (1000, 997, 1009), (10000, 9973, 10007), (100000, 99991, 100003), (1000000, 999983,
    1000003), (10000000, 9999991, 10000019)].all fun (x, p, q) => prev .small 32 q = .ok (some p) && next .small 32 p = .ok
    (some q) && prev .small 32 x = .ok (some p) && next .small 32 x = .ok (some q)) = true := by decide +kernel

/-! ## src/rand.rs -/

-- rand_prime, rand_prime_exact, src/rand.rs:209-283 (the draws are fixed)

def src : RandSource := ⟨fun k => 0x9e3779b97f4a7c15 * (k + 1), fun _ _ => [1234567, 7654321, 1111111]⟩
example : ((genPrimePrim .big src 8 1000 8 0).mapR (fun r => isPrime64 .big r.1) = .ok true) = true := by decide +kernel
example : ((genPrimeExactPrim .big src 8 1000 8 0).mapR (fun r => isPrime64 .big r.1 && 8 == bitLen r.1) = .ok true) = true :=
    by decide +kernel
example : ((genPrimePrim .big src 16 1000 16 0).mapR (fun r => isPrime64 .big r.1) = .ok true) = true := by decide +kernel
example : ((genPrimeExactPrim .big src 16 1000 16 0).mapR (fun r => isPrime64 .big r.1 && 16 == bitLen r.1) = .ok true) = true
    := by decide +kernel
example : ((genPrimePrim .big src 32 1000 32 0).mapR (fun r => isPrime64 .big r.1) = .ok true) = true := by decide +kernel
example : ((genPrimeExactPrim .big src 32 1000 32 0).mapR (fun r => isPrime64 .big r.1 && 32 == bitLen r.1) = .ok true) = true
    := by decide +kernel
example : ((genPrimePrim .big src 64 1000 64 0).mapR (fun r => isPrime64 .big r.1) = .ok true) = true := by decide +kernel

end NumPrime.Conformance
