import Verif.Py
import Verif.Units.Basic
import Verif.Units.Classes
import Verif.Units.Ops
import Verif.Units.Convert
import Verif.Units.Real
import Verif.Spec.Units
import Verif.Spec.Quantity
import Verif.Spec.Syntax
import Verif.Lemmas.Net
import Verif.Lemmas.Decon
import Verif.Lemmas.Simplify
import Verif.Lemmas.Mag
import Verif.Lemmas.Closure
import Verif.Lemmas.Combine
import Verif.Lemmas.Construct
import Verif.Lemmas.Parse
import Verif.Props.Products
import Verif.Props.Scaling
import Verif.Props.Reduction
import Verif.Props.Sums
import Verif.Props.Guards
import Verif.Props.Parsing
import Verif.Spec.Sizes
import Verif.Lemmas.Simple
import Verif.Props.SimpleConv
import Verif.Props.Registration
import Verif.Spec.Dimension
import Verif.Lemmas.Convert
import Verif.Lemmas.ConvertSpec
import Verif.Lemmas.ConvertDim
import Verif.Lemmas.ConvertMag
import Verif.Props.CompoundConv
import Verif.Units.Expr
import Verif.Units.MathFun
import Verif.Spec.SI
import Verif.Lemmas.Cast
import Verif.Tactic.UnitsEval
import Verif.Utility.Solve
import Verif.HeatTransfer.Conduction
import Verif.HeatTransfer.Transient
import Verif.Props.Solve
import Verif.Props.Conduction
import Verif.Lemmas.Erf
import Verif.Utility.Constants
import Verif.Utility.Dimensionless
import Verif.HeatTransfer.Exchangers
import Verif.HeatTransfer.Radiation
import Verif.MassTransfer.Steady
import Verif.MassTransfer.Transient
import Verif.MassTransfer.Pulses
import Verif.MassTransfer.Coefficients
import Verif.Safety.Basic
import Verif.Props.Transient
import Verif.Props.Diffusion
import Verif.Props.Exchangers
import Verif.Props.Radiation
import Verif.Props.Safety
import Verif.Spec.Cancel
import Verif.Lemmas.Complete
import Verif.Lemmas.PlainOps
import Verif.Props.Dimensionless
import Verif.Props.Correlations
import Verif.Thermo.Cubic
import Verif.Utility.Helpers
import Verif.Reactions.Parameters
import Verif.Reactions.Integral
import Verif.Props.Cubic
import Verif.Props.Helpers
import Verif.Props.Reactions
import Verif.Props.Integral
import Verif.Utility.WaterData
import Verif.Utility.Water
import Verif.Props.Water
import Verif.Spec.Formula
import Verif.Reactions.Balance
import Verif.Lemmas.LimitDen
import Verif.Lemmas.Formula
import Verif.Props.Balance
import Verif.Units.Heap
import Verif.Props.Aliasing
import Verif.Lemmas.Canonical
import Verif.Props.Canonical
import Verif.Props.Expressions
import Verif.Lemmas.ConvertCast
import Verif.HeatTransfer.Coefficients
import Verif.Props.Formulas
import Verif.Props.SlabDiffusion
import Verif.Props.Coefficients
import Verif.Units.Tagged
import Verif.Lemmas.Tagged
import Verif.Props.Written
import Verif.Props.Homogeneous
import Verif.Props.Checked
import Verif.Props.AnyUnits
import Verif.Props.AnyUnitsSeries
import Verif.Spec.Convertible
import Verif.Lemmas.ConvertTotal
import Verif.Lemmas.ConvertErr
import Verif.Props.Convertible
import Verif.Props.ConvExact
import Verif.Props.Exact
import Verif.Spec.Derived
import Verif.Lemmas.Recognise
import Verif.Props.Recognise
import Verif.Spec.Float
import Verif.Units.Float
import Verif.Lemmas.Float
import Verif.Spec.FloatVal
import Verif.Lemmas.FloatOps
import Verif.Lemmas.FloatConvert
import Verif.Props.Float
import Verif.Props.FloatExpr
import Verif.Props.FloatExamples
import Verif.Spec.Printing
import Verif.Props.Printing
import Verif.Props.PrintingRate
import Verif.Units.Memory
import Verif.Units.Programs
import Verif.Spec.Programs
import Verif.Lemmas.Memory
import Verif.Lemmas.MemoryMut
import Verif.Lemmas.MemoryPipe
import Verif.Lemmas.MemoryOps
import Verif.Lemmas.Programs
import Verif.Props.Memory
import Verif.Spec.FloatMath
import Verif.Units.Code
import Verif.Units.CodeLibrary
import Verif.Lemmas.FloatMath
import Verif.Lemmas.NoPrefix
import Verif.Props.FloatFormula
import Verif.Props.FloatLibrary
import Verif.Props.FloatCounts
import Verif.Props.Exact2
import Verif.Props.Exact3
import Verif.Spec.Fields
import Verif.Lemmas.Fields
import Verif.Props.Fields
import Verif.Lemmas.Series
import Verif.Props.SeriesLimit
import Verif.Lemmas.Iterate
import Verif.Props.CubicLimit
import Verif.Props.Prefixed
import Verif.Props.AnyPrefix
import Verif.Props.PrefixIgnored
import Verif.Spec.Histories
import Verif.Lemmas.MaxPrinciple
import Verif.Props.Unique
import Verif.Spec.Kinetics
import Verif.Lemmas.Order
import Verif.Props.Order
import Verif.Lemmas.WaterGrid
import Verif.Props.WaterConsistent
import Verif.Props.Smallest
import Verif.Units.Calls
import Verif.Spec.Calls
import Verif.Lemmas.Calls
import Verif.Units.CallsLibrary
import Verif.Props.Calls
import Verif.Spec.Release
import Verif.Lemmas.Spreading
import Verif.Lemmas.Kernel
import Verif.Lemmas.Corner
import Verif.Props.Release
import Verif.Props.AnyUnitsResults
import Verif.Spec.Scales
import Verif.Props.Scales
import Verif.Props.ScalesMore
import Verif.Props.AnyUnitsSolve
import Verif.Props.AnyUnitsMore
import Verif.Props.Ratio
import Verif.Spec.Rounding
import Verif.Units.Rounded
import Verif.Lemmas.Rounded
import Verif.Props.Rounded
import Verif.Spec.Written
import Verif.Props.Printed
import Verif.Reactions.Parentheses
import Verif.Spec.Parentheses
import Verif.Props.Parentheses
import Verif.Spec.Fresh
import Verif.Props.Registered
import Verif.Spec.Trends
import Verif.Spec.TrendTable
import Verif.Lemmas.Trends
import Verif.Props.Trends
import Verif.Spec.Returns
import Verif.Spec.ReturnsTable
import Verif.Lemmas.Returns
import Verif.Props.Returns
import Verif.Spec.Prefixes
import Verif.Lemmas.PrefixLoss
import Verif.Lemmas.PrefixUse
import Verif.Spec.PrefixTable
import Verif.Props.PrefixUse
import Verif.Props.WaterFloat
import Verif.Lemmas.Running
import Verif.Props.CubicFloat
import Verif.Props.WaterUse
import Verif.Props.PengRobinson
import Verif.Props.ExactTrips
import Verif.Lemmas.Once
import Verif.Props.Once
import Verif.Props.Ranged
import Verif.Props.Volumes
import Verif.Props.Chains
import Verif.Props.Steps
import Verif.Props.Totals
import Verif.Props.PowerLaws
import Verif.Props.PlateAverages
import Verif.Props.CurvedWalls
import Verif.Props.ExponentTotal
import Verif.Props.Similarity
import Verif.Props.CurvedWallsAnyUnits
import Verif.Props.WholeCalculations
import Verif.Props.ClassOfQuantity
import Verif.Props.IntegralInvariance
import Verif.Spec.Faults
import Verif.Lemmas.Faults
import Verif.Props.Faults
import Verif.Props.Foreign
import Verif.Props.IntegralZero
import Verif.Props.Change
import Verif.Props.ArangeDouble
import Verif.Props.TripDouble
import Verif.Props.FloatLaws
import Verif.Props.RangeInputs
import Verif.Props.BitForBit
import Verif.Props.SolveNone
import Verif.Props.VesselUnits
import Verif.Props.CanonicalSigned
import Verif.Props.RecogniseSigned
import Verif.Props.ProductOrder
import Verif.Props.DistribUnit
import Verif.Replay
