import Verif.Model.Basic
import Verif.Model.Float32

/-! # Model of src/traits.rs: `Primality`, `PrimalityTestConfig`, `FactorizationConfig` -/

namespace NumPrime

/-- `enum Primality`, src/traits.rs:22-32 -/
inductive Primality where
  | yes
  | no
  | probable (p : F32)
  deriving DecidableEq

namespace Primality

/-- `Primality::probably`, src/traits.rs:34-44 -/
def probably : Primality → Bool
  | no => false
  | _ => true

/-- `impl BitAnd for Primality`, src/traits.rs:46-60 -/
def and : Primality → Primality → Primality
  | no, _ => no
  | yes, rhs => rhs
  | probable _, no => no
  | probable p, yes => probable p
  | probable p, probable p2 => probable (p.mul p2)

/-- `impl BitOr for Primality`, src/traits.rs:62-77 -/
def or : Primality → Primality → Primality
  | no, rhs => rhs
  | yes, _ => yes
  | probable p, no => probable p
  | probable _, yes => yes
  | probable p, probable p2 => probable (F32.oneSub ((F32.oneSub p).mul (F32.oneSub p2)))

end Primality

/-- `struct PrimalityTestConfig`, src/traits.rs:80-97 -/
structure PrimalityTestConfig where
  sprpTrials : Nat
  sprpRandomTrials : Nat
  slprpTest : Bool
  eslprpTest : Bool
  deriving DecidableEq

namespace PrimalityTestConfig
/-- `Default::default`, src/traits.rs:99-110 -/
def default : PrimalityTestConfig := ⟨2, 3, false, false⟩
/-- `bpsw`, src/traits.rs:122-130 -/
def bpsw : PrimalityTestConfig := ⟨1, 0, true, false⟩
/-- `strict`, src/traits.rs:112-120 -/
def strict : PrimalityTestConfig := { bpsw with sprpRandomTrials := 1 }
end PrimalityTestConfig

/-- `struct FactorizationConfig`, src/traits.rs:138-156 (the unused `pm1_trials`, `pp1_trials` are left out) -/
structure FactorizationConfig where
  primalityConfig : PrimalityTestConfig
  tdLimit : Option Nat
  rhoTrials : Nat
  deriving DecidableEq

namespace FactorizationConfig
/-- `Default::default`, src/traits.rs:158-171 -/
def default : FactorizationConfig := ⟨.default, some (1 <<< 14), 4⟩
/-- `strict`, src/traits.rs:173-180 -/
def strict : FactorizationConfig := { default with primalityConfig := .strict }
end FactorizationConfig

end NumPrime
