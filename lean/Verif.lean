import Verif.Curve.Divisor
import Verif.Curve.Edwards
import Verif.Curve.EdwardsGroup
import Verif.Curve.Extension
import Verif.Curve.Jubjub
import Verif.Curve.Limb
import Verif.Curve.Logged
import Verif.Curve.Order
import Verif.Curve.Random
import Verif.Curve.Raw
import Verif.Curve.Scale
import Verif.Curve.Weierstrass
import Verif.Curve.WeierstrassProof
import Verif.Field.Canon
import Verif.Field.DebugText
import Verif.Field.Denote
import Verif.Field.Digits
import Verif.Field.Encode
import Verif.Field.Extra
import Verif.Field.ExtraProof
import Verif.Field.Params
import Verif.Field.Prime
import Verif.Field.Sqrt
import Verif.Field.SqrtProof
import Verif.Field.Square
import Verif.Field.SquareCount
import Verif.Field.Value
import Verif.Field.Wide
import Verif.Field.WideParams
import Verif.Groth16.Affine
import Verif.Groth16.CodeVerify
import Verif.Groth16.CodeVerifyRun
import Verif.Groth16.Concrete
import Verif.Groth16.Example
import Verif.Groth16.Extract
import Verif.Groth16.Fft
import Verif.Groth16.FftChecked
import Verif.Groth16.FftProof
import Verif.Groth16.Msm
import Verif.Groth16.MsmProof
import Verif.Groth16.Parallel
import Verif.Groth16.ParallelProof
import Verif.Groth16.Poly
import Verif.Groth16.PolyProof
import Verif.Groth16.Protocol
import Verif.Groth16.ProtocolMain
import Verif.Groth16.ProtocolProof
import Verif.Groth16.Struct
import Verif.Groth16.StructBn
import Verif.Groth16.Synth
import Verif.Limbs.Asm
import Verif.Limbs.AsmMain
import Verif.Limbs.AsmMul
import Verif.Limbs.AsmProof
import Verif.Limbs.AsmSquare
import Verif.Limbs.B256
import Verif.Limbs.B256Lemmas
import Verif.Limbs.B384
import Verif.Limbs.B384Lemmas
import Verif.Limbs.PowLogged
import Verif.Limbs.Represent
import Verif.Limbs.Word
import Verif.Nova.BigNat
import Verif.Nova.BigNatProof
import Verif.Nova.Blake
import Verif.Nova.BlakeRun
import Verif.Nova.Cheat
import Verif.Nova.Circuit
import Verif.Nova.CircuitProof
import Verif.Nova.Coherent
import Verif.Nova.Doubles
import Verif.Nova.Example
import Verif.Nova.Few
import Verif.Nova.Folding
import Verif.Nova.FoldingProof
import Verif.Nova.Ivc
import Verif.Nova.IvcKeys
import Verif.Nova.IvcProof
import Verif.Nova.LimbEq
import Verif.Nova.MulSound
import Verif.Nova.NatPoly
import Verif.Nova.NoInst
import Verif.Nova.OnWire
import Verif.Nova.OnWireProof
import Verif.Nova.Pedersen
import Verif.Nova.Raw
import Verif.Nova.RawProof
import Verif.Nova.RawRun
import Verif.Nova.Struct
import Verif.Nova.StructProof
import Verif.Nova.Stuck
import Verif.Nova.Transcript
import Verif.Ops.Dispatch
import Verif.Ops.GroupTrait
import Verif.Ops.Systems
import Verif.Pallet.Bytes
import Verif.Pallet.Pallet
import Verif.Props.Affine
import Verif.Props.AffineBn
import Verif.Props.AffineCut
import Verif.Props.AffineCutBn
import Verif.Props.Appends
import Verif.Props.Asm
import Verif.Props.BigNat
import Verif.Props.BigNatSigned
import Verif.Props.BigNatSound
import Verif.Props.Bilinear
import Verif.Props.Binding
import Verif.Props.CarryBits
import Verif.Props.Cases
import Verif.Props.ChangingKeys
import Verif.Props.CodePairing
import Verif.Props.CodeVerify
import Verif.Props.Completeness
import Verif.Props.Cost
import Verif.Props.Curve
import Verif.Props.CurveLimb
import Verif.Props.DebugText
import Verif.Props.Dense
import Verif.Props.DummyExample
import Verif.Props.Edwards
import Verif.Props.EdwardsGroup
import Verif.Props.Exact
import Verif.Props.Extents
import Verif.Props.FalseStatements
import Verif.Props.FftExact
import Verif.Props.FftPanics
import Verif.Props.FieldExtra
import Verif.Props.FieldMisc
import Verif.Props.Folding
import Verif.Props.Forgery
import Verif.Props.GadgetExact
import Verif.Props.Groth16
import Verif.Props.Groth16Bn254
import Verif.Props.Groth16Struct
import Verif.Props.Groth16StructForgery
import Verif.Props.Groth16StructMore
import Verif.Props.GroupTrait
import Verif.Props.GrumpkinLimb
import Verif.Props.Hash
import Verif.Props.InputBinding
import Verif.Props.Instances
import Verif.Props.Ivc
import Verif.Props.IvcPanic
import Verif.Props.IvcRetarget
import Verif.Props.KeyCover
import Verif.Props.Keys
import Verif.Props.KeysMore
import Verif.Props.Leak
import Verif.Props.Leaks
import Verif.Props.LimbEq
import Verif.Props.Msm
import Verif.Props.NafWeight
import Verif.Props.NovaStruct
import Verif.Props.NovaStructForgery
import Verif.Props.OnWire
import Verif.Props.Ops
import Verif.Props.Order
import Verif.Props.Orders
import Verif.Props.OtherCircuit
import Verif.Props.Padding
import Verif.Props.Pairing
import Verif.Props.Pallet
import Verif.Props.Pedersen
import Verif.Props.Point
import Verif.Props.Poly
import Verif.Props.PolyEq
import Verif.Props.Prepared
import Verif.Props.PrimeField
import Verif.Props.ProgramSize
import Verif.Props.Programs
import Verif.Props.ProgramsIvc
import Verif.Props.ProgramsPad
import Verif.Props.Publish
import Verif.Props.R1cs
import Verif.Props.Random
import Verif.Props.RangeCheckMore
import Verif.Props.Rare
import Verif.Props.Raw
import Verif.Props.RawForgery
import Verif.Props.RawNova
import Verif.Props.RawTranscript
import Verif.Props.ReadmeCurves
import Verif.Props.RowEq
import Verif.Props.SampleFlow
import Verif.Props.Scale
import Verif.Props.ScaleTower
import Verif.Props.Schedule
import Verif.Props.SetupPanics
import Verif.Props.Size
import Verif.Props.Small
import Verif.Props.TorsionCheck
import Verif.Props.Tower
import Verif.Props.Verdict
import Verif.Props.VerdictBn
import Verif.Props.VerdictZk
import Verif.Props.VerdictZkBn
import Verif.Props.Wide
import Verif.Props.Words
import Verif.Props.WordsMore
import Verif.Props.ZeroKnowledge
import Verif.R1cs.Bits
import Verif.R1cs.Dense
import Verif.R1cs.Gadget
import Verif.R1cs.Honest
import Verif.R1cs.Point
import Verif.R1cs.PointProof
import Verif.R1cs.Program
import Verif.R1cs.Row
import Verif.R1cs.RowLemmas
import Verif.R1cs.Run
import Verif.R1cs.Sat
import Verif.R1cs.System
import Verif.R1cs.WireOrd
import Verif.R1cs.Wp
import Verif.Spec.Affine
import Verif.Spec.AsmCarry
import Verif.Spec.BigNat
import Verif.Spec.Curve
import Verif.Spec.Digits
import Verif.Spec.Edwards
import Verif.Spec.ExactRun
import Verif.Spec.Feistel
import Verif.Spec.Ff
import Verif.Spec.Field
import Verif.Spec.Folding
import Verif.Spec.NovaStruct
import Verif.Spec.Order
import Verif.Spec.Pairing
import Verif.Spec.Pallet
import Verif.Spec.Point
import Verif.Spec.Poly
import Verif.Spec.Program
import Verif.Spec.R1cs
import Verif.Spec.RowPoly
import Verif.Spec.Scale
import Verif.Spec.Schedule
import Verif.Spec.Tower
import Verif.Spec.Wide
import Verif.Tower.Ate
import Verif.Tower.AtePairing
import Verif.Tower.AteProof
import Verif.Tower.Bilinear
import Verif.Tower.Code
import Verif.Tower.CodeRun
import Verif.Tower.CodeSim
import Verif.Tower.Eval
import Verif.Tower.FinalExp
import Verif.Tower.FinalExpProof
import Verif.Tower.Fqn
import Verif.Tower.Frobenius
import Verif.Tower.FrobeniusProof
import Verif.Tower.G2
import Verif.Tower.Inverse
import Verif.Tower.Lines
import Verif.Tower.Order
import Verif.Tower.Pairing
import Verif.Tower.PairingProof
import Verif.Tower.Prepared
import Verif.Tower.Quick
import Verif.Tower.QuickRun
import Verif.Tower.Quotient
import Verif.Tower.Ring
import Verif.Tower.Words
import Verif.Wire.Scale
import Verif.Wire.ScaleProof
import Verif.Wire.ScaleTower
