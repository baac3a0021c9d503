import Verif.Model.Estimate

/-! # Model of `NaiveBuffer` (src/buffer.rs)

Arithmetic on `u64` panics on overflow (debug build); `usize` is 64 bits wide. -/

namespace NumPrime
open Tables

/-- `struct NaiveBuffer`, src/buffer.rs:257-260 -/
structure Buf where
  list : List Nat
  next : Nat
  deriving DecidableEq, Repr

/-- `NaiveBuffer::new`, src/buffer.rs:262-271 -/
def Buf.new (bld : Build) : Buf := ⟨smallPrimes bld, smallPrimesNext bld⟩

/-- `contains`, src/buffer.rs:276-278 -/
def Buf.contains (b : Buf) (num : Nat) : Bool := (binarySearch b.list num).isOk

/-- `clear`, src/buffer.rs:280-284 -/
def Buf.clear (b : Buf) : Buf := ⟨b.list.take 16, 55⟩

/-- `iter`, src/buffer.rs:286-288: the values in order -/
def Buf.iter (b : Buf) : List Nat := b.list

/-- `bound`, src/buffer.rs:290-292 -/
def Buf.bound (b : Buf) : Res Nat :=
  match b.list.getLast? with
  | some p => .ok p
  | none => .panic

/-- `sieve.set(i, true)` on a bit vector of length `len`, represented by the list of the indices set so far;
panics when `i` is out of range (external: bitvec) -/
def sieveSet (len : Nat) (marks : List Nat) (i : Nat) : Res (List Nat) :=
  if i < len then .ok (i :: marks) else .panic

/-- `sieve.iter_zeros()` (external: bitvec) -/
def sieveZeros (len : Nat) (marks : List Nat) : List Nat := (List.range len).filter (fun i => !marks.contains i)

/-- the inner loop `for multi in (start..sieve_limit).step_by(2 * p)`, src/buffer.rs:311-315,320-324 -/
def sieveMark (current len : Nat) : List Nat → List Nat → Res (List Nat)
  | [], marks => .ok marks
  | m :: ms, marks => do
    let marks ← (if m ≥ current then sieveSet len marks ((m - current) / 2) else .ok marks : Res (List Nat))
    sieveMark current len ms marks

/-- the loop over the known primes, src/buffer.rs:304-316 (2 already dropped) -/
def sieveOld (current limit len : Nat) : List Nat → List Nat → Res (List Nat)
  | [], marks => .ok marks
  | p :: ps, marks => do
    let pp ← cmul (some 64) p p
    let start ← (if pp < current then cmul (some 64) p ((current / p) ||| 1) else cmul (some 64) p p : Res Nat)
    let step ← cmul (some 64) 2 p
    let marks ← sieveMark current len (rangeStep start limit step) marks
    sieveOld current limit len ps marks

/-- the loop over the new numbers, src/buffer.rs:319-325 -/
def sieveNew (current limit len : Nat) : List Nat → List Nat → Res (List Nat)
  | [], marks => .ok marks
  | p :: ps, marks => do
    let pp ← cmul (some 64) p p
    let step ← cmul (some 64) 2 p
    let marks ← sieveMark current len (rangeStep pp limit step) marks
    sieveNew current limit len ps marks

/-- `reserve`, src/buffer.rs:294-331 -/
def Buf.reserve (b : Buf) (limit : Nat) : Res Buf := do
  let sieveLimit ← cadd (some 64) (limit ||| 1) 2
  let current := b.next
  if current % 2 ≠ 1 then .panic
  else if sieveLimit < current then .ok b
  else do
    let len := (sieveLimit - current) / 2
    let marks ← sieveOld current sieveLimit len (b.list.drop 1) []
    let marks ← sieveNew current sieveLimit len (rangeStep current (isqrt sieveLimit + 1) 2) marks
    return ⟨b.list ++ (sieveZeros len marks).map (fun x => x * 2 + current), sieveLimit⟩

/-- `primes`, src/buffer.rs:348-355: the values yielded and the buffer afterwards -/
def Buf.primes (b : Buf) (limit : Nat) : Res (List Nat × Buf) := do
  let b ← b.reserve limit
  return (b.list.take (binarySearch b.list limit).upper, b)

/-- `into_primes`, src/buffer.rs:358-366, and `nt_funcs::primes`, src/nt_funcs.rs:535-537 -/
def Buf.intoPrimes (b : Buf) (limit : Nat) : Res (List Nat) := do
  let b ← b.reserve limit
  return b.list.take (binarySearch b.list limit).upper

/-- `nprimes`, src/buffer.rs:369-375 (`expect` panics on `None`; the `debug_assert!` is kept) -/
def Buf.nprimes (bld : Build) (o : Estimates) (b : Buf) (count : Nat) : Res (List Nat × Buf) := do
  match ← nthPrimeBounds bld (some 64) o count with
  | none => .panic
  | some (_, bound) =>
    let b ← b.reserve bound
    if b.list.length < count then .panic
    else return (b.list.take count, b)

/-- `into_nprimes`, src/buffer.rs:378-385, and `nt_funcs::nprimes`, src/nt_funcs.rs:542-544 -/
def Buf.intoNprimes (bld : Build) (o : Estimates) (b : Buf) (count : Nat) : Res (List Nat) :=
  (Buf.nprimes bld o b count).mapR Prod.fst

/-- `Iterator::product` of values converted to a type of width `w`, src/buffer.rs:340 -/
def productW (w : Width) : Nat → List Nat → Res Nat
  | acc, [] => .ok acc
  | acc, p :: ps => do
    let p ← unwrapFit w p
    let acc ← cmul w acc p
    productW w acc ps

/-- `primorial`, src/buffer.rs:339-341, src/nt_funcs.rs:561-566 -/
def Buf.primorial (bld : Build) (w : Width) (o : Estimates) (b : Buf) (n : Nat) : Res (Nat × Buf) := do
  let (l, b) ← Buf.nprimes bld o b n
  let v ← productW w 1 l
  return (v, b)

/-! ## prime counting -/

/-- `LruCache<(u64, usize), u64>`: entries with the most recently used first (external: lru) -/
structure Cache where
  cap : Nat
  items : List ((Nat × Nat) × Nat)

/-- `cache.get(&k)`: the entry becomes the most recently used one -/
def Cache.get (c : Cache) (k : Nat × Nat) : Option (Nat × Cache) :=
  match c.items.find? (fun e => e.1 == k) with
  | some e => some (e.2, { c with items := e :: c.items.filter (fun e' => e'.1 != k) })
  | none => none

/-- `cache.put(k, v)`: the least recently used entries beyond the capacity are dropped -/
def Cache.put (c : Cache) (k : Nat × Nat) (v : Nat) : Cache :=
  { c with items := ((k, v) :: c.items.filter (fun e => e.1 != k)).take c.cap }

/-- `while pi > n`, src/buffer.rs:406-409; the first argument bounds the rounds, `g` is the fuel of `prev_prime` -/
def nthWalkDown (bld : Build) (g n : Nat) : Nat → Nat → Nat → Res (Nat × Nat)
  | 0, _, _ => .timeout
  | f + 1, x, pi =>
    if pi > n then do
      match ← prevPrime bld (some 64) x none (fun _ => []) g with
      | none => .panic
      | some x' => do
        let pi ← csub pi 1
        nthWalkDown bld g n f x' pi
    else .ok (x, pi)

/-- `while pi < n`, src/buffer.rs:410-413 -/
def nthWalkUp (bld : Build) (g n : Nat) : Nat → Nat → Nat → Res Nat
  | 0, _, _ => .timeout
  | f + 1, x, pi =>
    if pi < n then do
      match ← nextPrime bld (some 64) x none (fun _ => []) g with
      | none => .panic
      | some x' => do
        let pi ← cadd (some 64) pi 1
        nthWalkUp bld g n f x' pi
    else .ok x

/-- `nth_prime`, src/buffer.rs:391-415; `pi` is the recursive call of `prime_pi`, `g` the fuel of the loops -/
def nthPrimeWith (bld : Build) (o : Estimates) (g : Nat) (pi : Buf → Nat → Res (Nat × Buf)) (b : Buf) (n : Nat) :
    Res (Nat × Buf) := do
  if n < b.list.length then
    let i ← csub n 1
    match b.list[i]? with
    | some p => return (p, b)
    | none => .panic
  else if n ≤ 4096 then
    let (l, b) ← Buf.nprimes bld o b n
    match l.getLast? with
    | some p => return (p, b)
    | none => .panic
  else
    match ← nthPrimeEst bld (some 64) o n g with
    | none => .panic
    | some e =>
      match ← prevPrime bld (some 64) e none (fun _ => []) g with
      | none => .panic
      | some x => do
        let (p, b) ← pi b x
        let (x, p) ← nthWalkDown bld g n g x p
        let x ← nthWalkUp bld g n g x p
        return (x, b)

/-- `prime_phi`, src/buffer.rs:418-431; `nth` is the call of `nth_prime`. For `a = 0` the code evaluates `a - 1` unless
the value is cached. -/
def primePhiWith (nth : Buf → Nat → Res (Nat × Buf)) : Nat → Buf → Cache → Nat → Res (Nat × Buf × Cache)
  | 0, b, c, x =>
    match c.get (x, 0) with
    | some (v, c) => .ok (v, b, c)
    | none => .panic
  | a + 1, b, c, x =>
    if a + 1 = 1 then do
      let s ← cadd (some 64) x 1
      return (s / 2, b, c)
    else
      match c.get (x, a + 1) with
      | some (v, c) => .ok (v, b, c)
      | none => do
        let (t1, b, c) ← primePhiWith nth a b c x
        let (pa, b) ← nth b (a + 1)
        let q ← cdiv x pa
        let (t2, b, c) ← primePhiWith nth a b c q
        let t ← csub t1 t2
        return (t, b, c.put (x, a + 1) t)

/-- the loop `for j in i..(l + 1)`, src/buffer.rs:467-470, over the remaining values of `j` -/
def piInner (pi nth : Buf → Nat → Res (Nat × Buf)) (w : Nat) : List Nat → Buf → Nat → Res (Nat × Buf)
  | [], b, sum => .ok (sum, b)
  | j :: js, b, sum => do
    let (pj, b) ← nth b j
    let q ← cdiv w pj
    let (v, b) ← pi b q
    let sum ← csub sum v
    piInner pi nth w js b sum

/-- the loop `for i in a + 1..b + 1`, src/buffer.rs:461-472, over the remaining values of `i` -/
def piOuter (pi nth : Buf → Nat → Res (Nat × Buf)) (limit c : Nat) : List Nat → Buf → Nat → Res (Nat × Buf)
  | [], b, sum => .ok (sum, b)
  | i :: is, b, sum => do
    let (p, b) ← nth b i
    let w ← cdiv limit p
    let (v, b) ← pi b w
    let sum ← csub sum v
    if i ≤ c then
      let (l, b) ← pi b (isqrt w)
      let l1 ← csub l 1
      let ll ← cmul (some 64) l l1
      let i3 ← csub i 3
      let ii ← cmul (some 64) i i3
      let d ← csub ll ii
      let d ← csub (d / 2) 1
      let sum ← cadd (some 64) sum d
      let (sum, b) ← piInner pi nth w (rangeStep i (l + 1) 1) b sum
      piOuter pi nth limit c is b sum
    else piOuter pi nth limit c is b sum

/-- `prime_pi`, src/buffer.rs:436-475; the first argument bounds the recursion depth, `g` is the fuel of the loops in
`nth_prime` -/
def primePi (bld : Build) (o : Estimates) (g : Nat) : Nat → Buf → Nat → Res (Nat × Buf)
  | 0, _, _ => .timeout
  | f + 1, buf, limit => do
    match buf.list.getLast? with
    | none => .panic
    | some last =>
      if limit ≤ last ∨ limit ≤ 38873 then do
        let buf ← buf.reserve limit
        return ((binarySearch buf.list limit).upper, buf)
      else do
        let pi := primePi bld o g f
        let nth := nthPrimeWith bld o g pi
        let b := isqrt limit
        let a := isqrt b
        let c := icbrt limit
        let buf ← buf.reserve b
        let (a, buf) ← pi buf a
        let (b, buf) ← pi buf b
        let (c, buf) ← pi buf c
        if a = 0 then .panic
        else do
          let (phi, buf, _) ← primePhiWith nth a buf ⟨a, []⟩ limit
          let ba ← cadd (some 64) b a
          let ba ← csub ba 2
          let d ← csub b a
          let d ← cadd (some 64) d 1
          let m ← cmul (some 64) ba d
          let sum ← cadd (some 64) phi (m / 2)
          piOuter pi nth limit c (rangeStep (a + 1) (b + 1) 1) buf sum

/-- `nth_prime`, src/buffer.rs:391-415 -/
def Buf.nthPrime (bld : Build) (o : Estimates) (g f : Nat) (b : Buf) (n : Nat) : Res (Nat × Buf) :=
  nthPrimeWith bld o g (primePi bld o g f) b n

/-- `prime_phi`, src/buffer.rs:418-431 -/
def Buf.primePhi (bld : Build) (o : Estimates) (g f : Nat) (b : Buf) (x a : Nat) (c : Cache) :
    Res (Nat × Buf × Cache) :=
  primePhiWith (Buf.nthPrime bld o g f) a b c x

/-- `nt_funcs::prime_pi`, src/nt_funcs.rs:549-551 -/
def ntPrimePi (bld : Build) (o : Estimates) (g f limit : Nat) : Res Nat :=
  (primePi bld o g f (Buf.new bld) limit).mapR Prod.fst

/-- `nt_funcs::nth_prime`, src/nt_funcs.rs:556-558 -/
def ntNthPrime (bld : Build) (o : Estimates) (g f n : Nat) : Res Nat :=
  ((Buf.new bld).nthPrime bld o g f n).mapR Prod.fst

/-! ## histories -/

/-- the calls that change a buffer -/
inductive BufOp where
  | reserve (limit : Nat)
  | clear
  | primes (limit : Nat)
  | nprimes (count : Nat)
  | primorial (w : Width) (n : Nat)
  | nthPrime (n : Nat)
  | primePi (limit : Nat)
  | primePhi (x a : Nat) (c : Cache)

/-- the buffer after one call -/
def BufOp.apply (bld : Build) (o : Estimates) (g f : Nat) (b : Buf) : BufOp → Res Buf
  | .reserve limit => b.reserve limit
  | .clear => .ok b.clear
  | .primes limit => (b.primes limit).mapR Prod.snd
  | .nprimes n => (Buf.nprimes bld o b n).mapR Prod.snd
  | .primorial w n => (Buf.primorial bld w o b n).mapR Prod.snd
  | .nthPrime n => (b.nthPrime bld o g f n).mapR Prod.snd
  | .primePi l => (NumPrime.primePi bld o g f b l).mapR Prod.snd
  | .primePhi x a c => (b.primePhi bld o g f x a c).mapR (fun r => r.2.1)

/-- the buffer after a sequence of calls -/
def Buf.run (bld : Build) (o : Estimates) (g f : Nat) : Buf → List BufOp → Res Buf
  | b, [] => .ok b
  | b, op :: ops => do
    let b ← op.apply bld o g f b
    b.run bld o g f ops

end NumPrime
