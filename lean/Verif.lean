import Verif.Engine.Frac
import Verif.Engine.FracProps
import Verif.Engine.FracRefs
import Verif.Engine.Frac2
import Verif.Engine.Select
import Verif.Engine.AddDrop
import Verif.Engine.AddDropProps
import Verif.Engine.DropProps
import Verif.Engine.SubProps
import Verif.Engine.Automaton
import Verif.Engine.AutomatonProps
import Verif.Engine.AutomatonLive
import Verif.Engine.Path
import Verif.Num.Binary64
import Verif.Engine.Assim
import Verif.Engine.CopyState
import Verif.Engine.Bulk
import Verif.Engine.Newton
import Verif.Engine.Liquidus
import Verif.Num.Min1d
import Verif.Num.Householder
import Verif.Num.Constraint
import Verif.Num.Reduced
import Verif.Num.Hfti
import Verif.Engine.Balance
import Verif.Engine.System
import Verif.Engine.SystemPhase
import Verif.Engine.SystemProps
import Verif.Engine.SystemExample
import Verif.Engine.Buffer
import Verif.Engine.BufferProps
import Verif.Engine.BufferStep
import Verif.Engine.BufferExample
import Verif.Engine.Saturation
import Verif.Engine.SaturationProps
import Verif.Engine.SaturationMin
import Verif.Engine.Speciation
import Verif.Engine.SpeciationProps
import Verif.Engine.SpeciationCases
import Verif.Engine.Evaluate
import Verif.Engine.EvaluateSvd
import Verif.Engine.EvaluateProps
import Verif.Engine.EvaluateExample
import Verif.Engine.Unmix
import Verif.Engine.UnmixProps
import Verif.Engine.UnmixExample
import Verif.Thermo.Redox
import Verif.Thermo.Buffers
import Verif.Thermo.Extensive
import Verif.Thermo.Compo
import Verif.Thermo.ConvTables
import Verif.Thermo.Mixing
import Verif.Thermo.Minerals.Binary
import Verif.Thermo.Miscibility
import Verif.Thermo.MiscibilityGarnet
import Verif.Thermo.MiscibilityHornblende
import Verif.Thermo.MiscibilityLeucite
import Verif.Thermo.MiscibilityFeldspar
import Verif.Thermo.MiscibilityKalsilite
import Verif.Thermo.Minerals.Leucite
import Verif.Thermo.Minerals.Garnet
import Verif.Thermo.Minerals.Feldspar
import Verif.Thermo.Minerals.Majorite
import Verif.Thermo.Minerals.Kalsilite
import Verif.Num.Vmmin
import Verif.Num.Chol
import Verif.Num.Modmrt
import Verif.Iface.Suppress
import Verif.Iface.Composition
import Verif.Iface.Settings
import Verif.Iface.Run
import Verif.Iface.Names
import Verif.Iface.Columns
import Verif.Iface.SaveLoad
import Verif.Iface.SaveLoadProps
import Verif.Iface.LoadAssim
import Verif.Num.FracApprox
import Verif.Support.Formula
import Verif.Support.FormulaTables
import Verif.Support.FormulaProps
import Verif.Support.MThread
import Verif.Lib.Nodes
import Verif.Lib.Strings
import Verif.Lib.BufferNames
import Verif.Lib.Modes
import Verif.Lib.Output
import Verif.Support.TableData
import Verif.Support.Tables
import Verif.Thermo.ElementRows
import Verif.Thermo.Elements
import Verif.Thermo.MuO2
import Verif.Thermo.StdState
import Verif.Thermo.Ordering
import Verif.Thermo.OrderTables
import Verif.Thermo.OrderExist
import Verif.Thermo.Ordered.Albite
import Verif.Thermo.Ordered.Cummingtonite
import Verif.Thermo.Ordered.Nepheline
import Verif.Thermo.Ordered.CumProps
import Verif.Thermo.Ordered.AlbProps
import Verif.Thermo.Ordered.AmphProps
import Verif.Thermo.Ordered.OrthoamphiboleProps
import Verif.Thermo.Ordered.ClinoamphiboleProps
import Verif.Thermo.Ordered.Orthoamphibole
import Verif.Thermo.Ordered.Clinoamphibole
import Verif.Thermo.Ordered.NephProps
import Verif.Thermo.Ordered.OlivineProps
import Verif.Thermo.Ordered.OlivineStep
import Verif.Thermo.OrderEnds
import Verif.Thermo.OrderPack
import Verif.Thermo.OrderStep
import Verif.Thermo.Ordered.Spinel
import Verif.Thermo.Ordered.PureHercynite
import Verif.Thermo.Ordered.PureMagnetite
import Verif.Thermo.Ordered.PureSpinel
import Verif.Thermo.Ordered.SpinelEnds
import Verif.Thermo.Ordered.SpinelProps
import Verif.Thermo.LiquidStd
import Verif.Thermo.LiquidBM
import Verif.Thermo.LambdaP
import Verif.Thermo.Silica
import Verif.Thermo.Liquid34
import Verif.Thermo.OrderFace
import Verif.Thermo.LiquidCO2
import Verif.Thermo.LiquidCO2Props
import Verif.Thermo.LiquidCO2Act
import Verif.Thermo.LiquidCO2Regular
import Verif.Thermo.LiquidCO2Order
import Verif.Thermo.LiquidCO2Eq
import Verif.Thermo.ConvSym
import Verif.Engine.SubO2
import Verif.Engine.SubO2Deriv
import Verif.Engine.SubO2Props
import Verif.Engine.SubO2Reaction
import Verif.Engine.SubO2Run
import Verif.Engine.SubO2Example
import Verif.Engine.LineSearch
import Verif.Engine.LineSearchProps
import Verif.Engine.LineDescent
import Verif.Engine.LineExample
import Verif.Engine.LineBuffer
import Verif.Engine.LineBufferDescent
import Verif.Num.PackedLU
import Verif.Num.PackedZero
import Verif.Num.PackedPair
import Verif.Thermo.OrderSolve
import Verif.Thermo.OrderLimit
import Verif.Thermo.Ordered.OrthoOxideProps
import Verif.Thermo.Ordered.OrthoOxideLimit
import Verif.Thermo.Ordered.SpinelLimit
import Verif.Thermo.OrderSym
import Verif.Thermo.Ordered.RhombohedralProps
import Verif.Thermo.Ordered.RhombohedralLimit
import Verif.Thermo.OrderUp
import Verif.Thermo.Ordered.MeliliteClamp
import Verif.Thermo.Ordered.MeliliteLimit
import Verif.Thermo.Water.TenKbar
import Verif.Thermo.Fluid.Gas
import Verif.Thermo.Fluid.MixEnds
import Verif.Thermo.Fluid.MixHot
import Verif.Thermo.Fluid.MixTStates
import Verif.Thermo.Fluid.MixSearch
import Verif.Thermo.Fluid.MixTTProps
