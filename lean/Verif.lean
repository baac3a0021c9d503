import Verif.Conformance
import Verif.Model.Basic
import Verif.Model.Buffer
import Verif.Model.Estimate
import Verif.Model.Examples
import Verif.Model.Factor
import Verif.Model.Factorize
import Verif.Model.Float
import Verif.Model.Float32
import Verif.Model.Integer
import Verif.Model.Lookup
import Verif.Model.Mint
import Verif.Model.MintMore
import Verif.Model.Moebius
import Verif.Model.NtFuncs
import Verif.Model.Primality
import Verif.Model.Profile
import Verif.Model.Rand
import Verif.Model.Release
import Verif.Model.ReleaseBuffer
import Verif.Model.ReleaseExamples
import Verif.Model.ReleaseMint
import Verif.Model.ReleaseMoebius
import Verif.Model.ReleaseNth
import Verif.Model.ReleasePrimality
import Verif.Model.ReleasePrime
import Verif.Model.ReleaseRand
import Verif.Model.Traits
import Verif.Proofs.Basic
import Verif.Proofs.Binary64
import Verif.Proofs.Buffer
import Verif.Proofs.BufferOps
import Verif.Proofs.Cheb
import Verif.Proofs.Divisors
import Verif.Proofs.EstCheck
import Verif.Proofs.EstRange
import Verif.Proofs.EstSeg1
import Verif.Proofs.EstSeg2
import Verif.Proofs.EstSeg3
import Verif.Proofs.EstSeg4
import Verif.Proofs.EstSeg5
import Verif.Proofs.EstSeg6
import Verif.Proofs.EstSeg7
import Verif.Proofs.EstSeg8
import Verif.Proofs.ExactSmall
import Verif.Proofs.FactorMap
import Verif.Proofs.Factorize
import Verif.Proofs.Float32
import Verif.Proofs.FloatFar
import Verif.Proofs.Gram
import Verif.Proofs.Interval
import Verif.Proofs.IsPrime
import Verif.Proofs.IsPrimeGen
import Verif.Proofs.Jaeschke
import Verif.Proofs.JaeschkeAll
import Verif.Proofs.JaeschkeRun1
import Verif.Proofs.JaeschkeRun2
import Verif.Proofs.JaeschkeRun3
import Verif.Proofs.JaeschkeRun4
import Verif.Proofs.Legendre
import Verif.Proofs.LnFix
import Verif.Proofs.Lucas
import Verif.Proofs.LucasParams
import Verif.Proofs.LucasSeq
import Verif.Proofs.Minima
import Verif.Proofs.Mint
import Verif.Proofs.NextPrime
import Verif.Proofs.OneLine32
import Verif.Proofs.Orders
import Verif.Proofs.PiBounds
import Verif.Proofs.Pratt
import Verif.Proofs.PrimeList
import Verif.Proofs.PrimePi
import Verif.Proofs.PrimeProd
import Verif.Proofs.Rabin
import Verif.Proofs.Rand
import Verif.Proofs.Riemann
import Verif.Proofs.Roots
import Verif.Proofs.SieveMask
import Verif.Proofs.Sprp
import Verif.Proofs.SqufofTerm
import Verif.Proofs.Tables
import Verif.Proofs.Trial
import Verif.Proofs.Worklist
import Verif.Proofs.Worklist128
import Verif.Proofs.ZetaTable
import Verif.Props.Agree
import Verif.Props.AnyBuffer
import Verif.Props.Bounds
import Verif.Props.Buffer
import Verif.Props.BuildAgree
import Verif.Props.Consistency
import Verif.Props.Counting
import Verif.Props.Counting32
import Verif.Props.Estimates
import Verif.Props.Exact32
import Verif.Props.Examples
import Verif.Props.Factor
import Verif.Props.Factorize
import Verif.Props.FactorizeU32
import Verif.Props.Factors
import Verif.Props.Instances
import Verif.Props.Instances2
import Verif.Props.Instances3
import Verif.Props.IsPrime64
import Verif.Props.IsPrimeGen
import Verif.Props.Liars
import Verif.Props.Limit
import Verif.Props.Lucas
import Verif.Props.LucasSearch
import Verif.Props.Lucky
import Verif.Props.Mint
import Verif.Props.MintMore
import Verif.Props.MintOps
import Verif.Props.Moebius
import Verif.Props.NextPrime
import Verif.Props.OneLineComplete
import Verif.Props.PrimePi
import Verif.Props.Primorial
import Verif.Props.Probability
import Verif.Props.Profile
import Verif.Props.Rand
import Verif.Props.RandDist
import Verif.Props.RandDistSafe
import Verif.Props.RandDistSmall
import Verif.Props.RandDistWide
import Verif.Props.RandPanic
import Verif.Props.RandReach
import Verif.Props.RandSafeLive
import Verif.Props.RandSafeLiveWide
import Verif.Props.RandSafeProb
import Verif.Props.RandSafeSizes
import Verif.Props.RandomRounds
import Verif.Props.Reachable
import Verif.Props.Release
import Verif.Props.ReleaseExamples
import Verif.Props.ReleaseMint
import Verif.Props.ReleaseMoebius
import Verif.Props.ReleaseNth
import Verif.Props.ReleasePi
import Verif.Props.ReleasePrimality
import Verif.Props.ReleasePrime
import Verif.Props.ReleaseRand
import Verif.Props.ReleaseReserve
import Verif.Props.ReleaseSettled
import Verif.Props.Rho
import Verif.Props.Roots
import Verif.Props.Settled
import Verif.Props.Shanks
import Verif.Props.Sprp
import Verif.Props.Stepping
import Verif.Props.Stronger
import Verif.Props.TableRange
import Verif.Props.Termination
import Verif.Props.Widen
import Verif.Spec.Factor
import Verif.Spec.Lucky
import Verif.Spec.Primes
import Verif.Spec.Probable
import Verif.Spec.Riemann
import Verif.Tables.MRBase32
import Verif.Tables.MRBase64
import Verif.Tables.PrimesInv
import Verif.Tables.Residues
import Verif.Tables.SmallPrimes
import Verif.Tables.Wheel
import Verif.Tables.ZetaLog
