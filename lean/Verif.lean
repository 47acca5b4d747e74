import Verif.CSem
import Verif.Model.Arm.Ev
import Verif.Model.Arm.Kara
import Verif.Model.Arm.KaraS
import Verif.Model.Arm.Keccak
import Verif.Model.Arm.KeccakBytes
import Verif.Model.Arm.Machine
import Verif.Model.Arm.MultS
import Verif.Model.Arm.Obs
import Verif.Model.Arm.ObsMul
import Verif.Model.Arm.Polymul
import Verif.Model.Arm.PolymulS
import Verif.Model.Arm.Tc
import Verif.Model.Arm.TcS
import Verif.Model.Arm.Thumb
import Verif.Model.Arm.Toom
import Verif.Model.Arm.ToomS
import Verif.Model.Avx.AesNi
import Verif.Model.Avx.Indcpa
import Verif.Model.Avx.Kem
import Verif.Model.Avx.Machine
import Verif.Model.Avx.Matrix
import Verif.Model.Avx.Pack
import Verif.Model.Avx.Scm
import Verif.Model.Avx.Toom
import Verif.Model.Cbd
import Verif.Model.Conc.Avx
import Verif.Model.Conc.Rng
import Verif.Model.Fips202
import Verif.Model.InPlace
import Verif.Model.InPlaceAvx
import Verif.Model.InPlaceKem
import Verif.Model.InPlacePorts
import Verif.Model.InPlaceU
import Verif.Model.Indcpa
import Verif.Model.Kat
import Verif.Model.KatMain
import Verif.Model.Kem
import Verif.Model.Leak.Avx
import Verif.Model.Leak.AvxMachine
import Verif.Model.Leak.M0
import Verif.Model.Leak.M0Linked
import Verif.Model.Leak.M4
import Verif.Model.Leak.M4Linked
import Verif.Model.Leak.Monad
import Verif.Model.Leak.Ref
import Verif.Model.Leak.Rng
import Verif.Model.Leak.U
import Verif.Model.Leak.X4
import Verif.Model.Leak.X4Machine
import Verif.Model.M0.Bench
import Verif.Model.M0.Fips202
import Verif.Model.M0.Indcpa
import Verif.Model.M0.Linked
import Verif.Model.M0.Pack
import Verif.Model.M0.Poly
import Verif.Model.M0.PolyMul
import Verif.Model.M0.PolyMulInt
import Verif.Model.M0.Prng
import Verif.Model.M4.Base
import Verif.Model.M4.Cbd
import Verif.Model.M4.Kem
import Verif.Model.M4.Pack
import Verif.Model.M4.Poly
import Verif.Model.M4.PolyMul
import Verif.Model.Pack
import Verif.Model.Params
import Verif.Model.Poly
import Verif.Model.PolyMul
import Verif.Model.Proba
import Verif.Model.Rng
import Verif.Model.Sanity
import Verif.Model.TestKex
import Verif.Model.U.Aes
import Verif.Model.U.Indcpa
import Verif.Model.U.Kem
import Verif.Model.U.Params
import Verif.Model.U.Poly
import Verif.Model.U.Sha2
import Verif.Model.Verify
import Verif.Model.X4.Fips202
import Verif.Model.X4.Indcpa
import Verif.Model.X4.Keccak
import Verif.Model.X4.Kem
import Verif.Model.X4.Pack
import Verif.Model.X4.Rng
import Verif.Model.X4.Shifts
import Verif.Model.X4.Vec
import Verif.Proof.AesInj
import Verif.Proof.Arm.ExtractBytes
import Verif.Proof.Arm.ExtractMain
import Verif.Proof.Arm.Form
import Verif.Proof.Arm.InLane
import Verif.Proof.Arm.InitBit
import Verif.Proof.Arm.Interleave
import Verif.Proof.Arm.KDom
import Verif.Proof.Arm.KSim
import Verif.Proof.Arm.Kara
import Verif.Proof.Arm.KaraAt
import Verif.Proof.Arm.KaraL
import Verif.Proof.Arm.KeccakC
import Verif.Proof.Arm.KeccakM0
import Verif.Proof.Arm.KeccakP
import Verif.Proof.Arm.KeccakR
import Verif.Proof.Arm.LDom
import Verif.Proof.Arm.LSim
import Verif.Proof.Arm.Mem
import Verif.Proof.Arm.Mul
import Verif.Proof.Arm.PCall
import Verif.Proof.Arm.PDom
import Verif.Proof.Arm.PSim
import Verif.Proof.Arm.Polymul
import Verif.Proof.Arm.RDom
import Verif.Proof.Arm.RSim
import Verif.Proof.Arm.Sim
import Verif.Proof.Arm.Taint
import Verif.Proof.Arm.TaintDom
import Verif.Proof.Arm.TaintMul
import Verif.Proof.Arm.Tc
import Verif.Proof.Arm.TcCall
import Verif.Proof.Arm.TcL
import Verif.Proof.Arm.Thumb
import Verif.Proof.Arm.Toom
import Verif.Proof.Arm.ToomCall
import Verif.Proof.Arm.XorBytes
import Verif.Proof.Arm.XorMain
import Verif.Proof.Avx.AesNi
import Verif.Proof.Avx.Eval
import Verif.Proof.Avx.Indcpa
import Verif.Proof.Avx.Interp
import Verif.Proof.Avx.Kem
import Verif.Proof.Avx.Lin
import Verif.Proof.Avx.Pack
import Verif.Proof.Avx.Prod
import Verif.Proof.Avx.Ring
import Verif.Proof.Avx.Scm
import Verif.Proof.Avx.Sym
import Verif.Proof.Avx.Transpose
import Verif.Proof.Avx.Vector
import Verif.Proof.BitTac
import Verif.Proof.Bits
import Verif.Proof.Cbd
import Verif.Proof.Cca
import Verif.Proof.Conc.Rng
import Verif.Proof.Correct
import Verif.Proof.Expander
import Verif.Proof.Failure
import Verif.Proof.FailureBound
import Verif.Proof.Fips202
import Verif.Proof.Hiding
import Verif.Proof.IdealFailure
import Verif.Proof.InPlaceAvx
import Verif.Proof.InPlaceKem
import Verif.Proof.InPlaceU
import Verif.Proof.Indcpa
import Verif.Proof.Kara
import Verif.Proof.Kat
import Verif.Proof.KatMain
import Verif.Proof.Keccak
import Verif.Proof.Kem
import Verif.Proof.Law
import Verif.Proof.Leak.ConstTime
import Verif.Proof.Leak.ConstTimeAvx
import Verif.Proof.Leak.ConstTimeM0
import Verif.Proof.Leak.ConstTimeM4
import Verif.Proof.Leak.ConstTimeU
import Verif.Proof.Leak.ConstTimeX4
import Verif.Proof.Leak.Erase
import Verif.Proof.Leak.EraseAvx
import Verif.Proof.Leak.EraseM0
import Verif.Proof.Leak.EraseM4
import Verif.Proof.Leak.EraseU
import Verif.Proof.Leak.EraseX4
import Verif.Proof.Leak.Logic
import Verif.Proof.Leak.Rng
import Verif.Proof.M0.Bench
import Verif.Proof.M0.Correct
import Verif.Proof.M0.Encode
import Verif.Proof.M0.Fips202
import Verif.Proof.M0.GenMatrix
import Verif.Proof.M0.GenSecret
import Verif.Proof.M0.Indcpa
import Verif.Proof.M0.Kara
import Verif.Proof.M0.KaraInt
import Verif.Proof.M0.Kem
import Verif.Proof.M0.Lanes
import Verif.Proof.M0.Pack
import Verif.Proof.M0.Phases
import Verif.Proof.M0.Pke
import Verif.Proof.M0.PolyMul
import Verif.Proof.M0.PolyMulInt
import Verif.Proof.M0.Prng
import Verif.Proof.M0.Steps
import Verif.Proof.M0.Stream
import Verif.Proof.M4.Cbd
import Verif.Proof.M4.Contract
import Verif.Proof.M4.Enc
import Verif.Proof.M4.Kem
import Verif.Proof.M4.Pack
import Verif.Proof.M4.Poly
import Verif.Proof.M4.PolyMul
import Verif.Proof.Pack
import Verif.Proof.Poly
import Verif.Proof.PolyArr
import Verif.Proof.Precision
import Verif.Proof.Prob
import Verif.Proof.Proba
import Verif.Proof.Proba2
import Verif.Proof.Proba3
import Verif.Proof.Quotient
import Verif.Proof.Ring
import Verif.Proof.Rng
import Verif.Proof.Rom
import Verif.Proof.RoundTrip
import Verif.Proof.Sanity
import Verif.Proof.TestKex
import Verif.Proof.Toom
import Verif.Proof.U.AesBits
import Verif.Proof.U.AesCipher
import Verif.Proof.U.AesCtr
import Verif.Proof.U.AesKey
import Verif.Proof.U.AesOrtho
import Verif.Proof.U.AesSbox
import Verif.Proof.U.Correct
import Verif.Proof.U.Failure
import Verif.Proof.U.Indcpa
import Verif.Proof.U.Kem
import Verif.Proof.U.Poly
import Verif.Proof.U.Sha2
import Verif.Proof.U.Sha256
import Verif.Proof.U.Sha512
import Verif.Proof.Vector
import Verif.Proof.VectorData
import Verif.Proof.VectorData1
import Verif.Proof.VectorData2
import Verif.Proof.VectorData3
import Verif.Proof.VectorData4
import Verif.Proof.VectorData5
import Verif.Proof.Verify
import Verif.Proof.X4.Blocks
import Verif.Proof.X4.Fips202
import Verif.Proof.X4.Indcpa
import Verif.Proof.X4.Keccak
import Verif.Proof.X4.Kem
import Verif.Proof.X4.Overrun
import Verif.Proof.X4.Pack
import Verif.Proof.X4.PackSpec
import Verif.Proof.X4.Pke
import Verif.Proof.X4.Unpack
import Verif.Proof.X4.Vec
import Verif.Props.Aes
import Verif.Props.Arm
import Verif.Props.ArmConstTime
import Verif.Props.ArmTc
import Verif.Props.Avx
import Verif.Props.AvxConstTime
import Verif.Props.Bench
import Verif.Props.ConcAvx
import Verif.Props.ConcRng
import Verif.Props.ConstTime
import Verif.Props.Failure
import Verif.Props.Hash
import Verif.Props.Hiding
import Verif.Props.InPlace
import Verif.Props.InPlaceAvx
import Verif.Props.InPlaceKem
import Verif.Props.InPlacePorts
import Verif.Props.InPlaceU
import Verif.Props.Interop
import Verif.Props.Kat
import Verif.Props.KatMain
import Verif.Props.Kem
import Verif.Props.M0
import Verif.Props.M0Asm
import Verif.Props.M0Bytes
import Verif.Props.M0ConstTime
import Verif.Props.M0Kem
import Verif.Props.M0Reentrant
import Verif.Props.M4
import Verif.Props.M4ConstTime
import Verif.Props.Pack
import Verif.Props.Poly
import Verif.Props.Polymul
import Verif.Props.Proba
import Verif.Props.Rng
import Verif.Props.RngLeak
import Verif.Props.Rom
import Verif.Props.Sample
import Verif.Props.Sanity
import Verif.Props.Sha2
import Verif.Props.TestKex
import Verif.Props.UFailure
import Verif.Props.USaber
import Verif.Props.Vector
import Verif.Props.X4
import Verif.Props.X4ConstTime
import Verif.Props.X4Kem
import Verif.Props.X4Rng
import Verif.Spec.Aes
import Verif.Spec.Arrays
import Verif.Spec.Bench
import Verif.Spec.Bits
import Verif.Spec.Carry
import Verif.Spec.Cbd
import Verif.Spec.Cca
import Verif.Spec.Drbg
import Verif.Spec.Exchange
import Verif.Spec.Failure
import Verif.Spec.Fraction
import Verif.Spec.Hex
import Verif.Spec.Hiding
import Verif.Spec.KatFile
import Verif.Spec.Keccak
import Verif.Spec.Law
import Verif.Spec.M0
import Verif.Spec.M4
import Verif.Spec.M4Lib
import Verif.Spec.Noise
import Verif.Spec.Planted
import Verif.Spec.Ring
import Verif.Spec.Rom
import Verif.Spec.Saber
import Verif.Spec.Sha2
import Verif.Spec.UFailure
import Verif.Spec.USaber
import Verif.Spec.WideProduct
