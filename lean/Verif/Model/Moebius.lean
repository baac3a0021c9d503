import Verif.Model.Factorize
import Verif.Model.Buffer
import Verif.Tables.Residues

/-! Möbius function and square-free test, src/nt_funcs.rs:568-637. -/

namespace NumPrime
open Tables

/-- `factorize`, the free function, src/nt_funcs.rs:525-530: `factorize` of a new buffer -/
def factorizeNew (bld : Build) (w : Width) (rng : Rng) (fuel attempts k target : Nat) : Res (List (Nat × Nat) × Nat) :=
  factorize bld w (Buf.new bld).list rng fuel attempts k target

/-- `moebius_factorized`, src/nt_funcs.rs:617-625 -/
def moebiusFactorized (factors : List (Nat × Nat)) : Int :=
  if factors.any (fun x => x.2 > 1) then 0
  else if factors.length % 2 = 0 then 1
  else -1

/-- the table lookup of `moebius`, src/nt_funcs.rs:590-595: `v` is the target minus 1 and below 256 -/
def moebiusLookup (v : Nat) : Int :=
  let m := moebiusOdd.getD (v >>> 6) 0
  let m := m &&& (3 <<< (v &&& 63))
  let m := m >>> (v &&& 63)
  (m : Int) - 1

/-- `moebius` on odd targets, src/nt_funcs.rs:589-612 -/
def moebiusOddPart (bld : Build) (w : Width) (rng : Rng) (fuel attempts k target : Nat) : Res Int := do
  let v ← csub target 1
  if v < 2 ^ 8 then return moebiusLookup v
  if target % 9 = 0 ∨ target % 25 = 0 ∨ target % 49 = 0 then return 0
  let (f, _) ← factorizeNew bld w rng fuel attempts k target
  return moebiusFactorized f

/-- `moebius`, src/nt_funcs.rs:577-613. The recursive call in line 586 has an odd argument, so it is written as a call of
the odd case. -/
def moebius (bld : Build) (w : Width) (rng : Rng) (fuel attempts k target : Nat) : Res Int := do
  if target % 2 = 0 then
    if target % 4 = 0 then return 0
    else
      let m ← moebiusOddPart bld w rng fuel attempts k (target / 2)
      return -m
  else moebiusOddPart bld w rng fuel attempts k target

/-- `is_square_free`, src/nt_funcs.rs:631-636 -/
def isSquareFree (bld : Build) (w : Width) (rng : Rng) (fuel attempts k target : Nat) : Res Bool := do
  let m ← moebius bld w rng fuel attempts k target
  return m ≠ 0

end NumPrime
