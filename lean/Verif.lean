import Verif.Circ
import Verif.Hint
import Verif.Gadget
import Verif.Util
import Verif.Float
import Verif.Core
import Verif.RangeCheck
import Verif.GadgetSpec
import Verif.Flt
import Verif.RoundSpec
import Verif.RoundAny
import Verif.FixSpec
import Verif.MulSpec
import Verif.DivSpec
import Verif.SqrtSpec
import Verif.AddSpec
import Verif.Field
import Verif.Props.RangeCheck
import Verif.Props.Gadget
import Verif.Spec.Ieee
import Verif.Native
import Verif.Props.Native
import Verif.Value
import Verif.MulVal
import Verif.DivVal
import Verif.SqrtVal
import Verif.AddVal
import Verif.AddVal2
import Verif.Spec.Encodes
import Verif.NewFloatSpec
import Verif.Bridge
import Verif.ArithBridge
import Verif.GoodInst
import Verif.Examples
import Verif.Props.Arith
import Verif.CmpSpec
import Verif.CmpVal
import Verif.AssertSpec
import Verif.AssertVal
import Verif.Props.Compare
import Verif.IntSpec
import Verif.IntVal
import Verif.ToIntSpec
import Verif.Props.Integer
import Verif.Spec.Tolerance
import Verif.UlpSpec
import Verif.Props.Tolerance
import Verif.Deferred
import Verif.DeferredSpec
import Verif.Shape
import Verif.Props.Deferred
import Verif.Circuits
import Verif.CircuitSpec
import Verif.Forge
import Verif.Props.Circuits
import Verif.Props.Forgery
import Verif.AnyWidth
import Verif.Props.AnyWidth
import Verif.Honest
import Verif.Spec.Expr
import Verif.Expr
import Verif.Props.Expr
import Verif.Algebra
import Verif.Props.Algebra
import Verif.Consts
import Verif.Math
import Verif.Props.Math
import Verif.GeoTables
import Verif.Loc2Index
import Verif.Spec.H3
import Verif.Spec.Real
import Verif.HexSpec
import Verif.RealOps
import Verif.Prover
import Verif.HexReal
import Verif.Props.Hex
import Verif.RealErr
import Verif.ScaleSpec
import Verif.FaceSpec
import Verif.GeoErr
import Verif.TrigBound
import Verif.GeoSource
import Verif.GeoFrame
import Verif.FaceTable
import Verif.Props.Geo
import Verif.Props.Location
import Verif.LocShape
import Verif.Width
import Verif.Width64
import Verif.WidthW
import Verif.Props.Accept
import Verif.Spec.Gnomonic
import Verif.GnomonicMath
import Verif.HexCell
import Verif.Abn
import Verif.FaceNear
import Verif.LocErr
import Verif.LocErr2
import Verif.LocNear
import Verif.LocSpec
import Verif.LocCell
import Verif.CellConsts
import Verif.Props.Centre
import Verif.Props.Cell
import Verif.SinSpec
import Verif.WrapSpec
import Verif.Props.Wrapper
import Verif.Props.Precompute
import Verif.Props.Atan
import Verif.Props.Text
import Verif.Spec.Counts
import Verif.Counts
import Verif.Props.Counts
import Verif.TrigCircuits
import Verif.TrigShape
import Verif.TrigCircuitSpec
import Verif.Props.TrigCircuits
import Verif.FloorAny
import Verif.Props.FloorAny
import Verif.Spec.Bench
import Verif.Bench
import Verif.BenchSpec
import Verif.Props.Bench
import Verif.Convert
import Verif.RealExists
import Verif.Props.Convert
import Verif.UlpAny
import Verif.Props.ToleranceAny
import Verif.Props.ConvAny
import Verif.Spec.Vectors
import Verif.Vectors
import Verif.VectorsSpec
import Verif.Props.Vectors
import Verif.Remez
import Verif.RemezSpec
import Verif.Props.Remez
import Verif.MathVectors
import Verif.Props.MathVectors
import Verif.AtanSpecial
import Verif.CellBound
import Verif.Props.CellNumbers
import Verif.LocVectors
import Verif.Props.LocVectors
import Verif.Props.LocRows
import Verif.Props.FarCell
import Verif.Spec.Firm
import Verif.Firm
import Verif.Props.ExprAny
import Verif.TableGen
import Verif.TableGenSpec
import Verif.Props.TableGen
import Verif.Hints
import Verif.HintSpec
import Verif.HintCheck
import Verif.Props.Hints
import Verif.Spec.Ground
import Verif.Ground
import Verif.GroundCases
import Verif.Props.Ground
import Verif.Spec.Latex
import Verif.Latex
import Verif.Props.Latex
import Verif.Spec.Poly
import Verif.PolyGen
import Verif.PolySpec
import Verif.PolyGenSpec
import Verif.Props.Poly
import Verif.Spec.Runtime
import Verif.Runtime
import Verif.RuntimeSpec
import Verif.Props.Runtime
import Verif.LocTables
import Verif.CellCheck
import Verif.RowCheck
import Verif.LibmCheck
import Verif.Props.LocTables
import Verif.R1cs
import Verif.R1csFloat
import Verif.R1csSpec
import Verif.R1csRef
import Verif.R1csCirc
import Verif.R1csCommit
import Verif.R1csTests
import Verif.Props.R1cs
import Verif.R1csLoc
import Verif.R1csLocRef
import Verif.R1csLocCirc
import Verif.R1csWidth
import Verif.Props.R1csLoc
import Verif.R1csFrame
import Verif.R1csPre
import Verif.R1csPreCirc
import Verif.R1csPreWidth
import Verif.Props.R1csPre
import Verif.R1csMath
import Verif.Props.R1csMath
import Verif.R1csShift
import Verif.R1csAgain
import Verif.CountsText
import Verif.Spec.CountsFiles
import Verif.Props.CountsText
import Verif.LogDeriv
import Verif.R1csLookup
import Verif.R1csSized
import Verif.R1csRows
import Verif.Props.Lookup
import Verif.Props.WidthCost
import Verif.R1csCompress
import Verif.Props.Compress
import Verif.DrawGen
import Verif.Props.Draw
import Verif.UtilTests
import Verif.UtilTestsSpec
import Verif.Props.UtilTests
import Verif.Spec.Polygon
import Verif.Proximity
import Verif.Props.Proximity
