import Verif.Basic
import Verif.Units.Model
import Verif.Units.Spec
import Verif.Units.Lemmas
import Verif.Units.PropsTables
import Verif.Units.Props
import Verif.Config.Model
import Verif.Config.Spec
import Verif.Config.Lemmas
import Verif.Config.Props
import Verif.Config.Defaults
import Verif.Text.Model
import Verif.Text.Spec
import Verif.Text.Props
import Verif.Data.Model
import Verif.Data.Spec
import Verif.Data.Lemmas
import Verif.Data.Props
import Verif.Data.Check
import Verif.Registry.Model
import Verif.Registry.Spec
import Verif.Registry.Props
import Verif.Registry.Info
import Verif.Registry.InfoSpec
import Verif.Registry.PropsInfo
import Verif.Registry.PropsSummary
import Verif.Registry.InfoExamples
import Verif.Gas.Inner
import Verif.Gas.Model
import Verif.Gas.Spec
import Verif.Gas.PropsInner
import Verif.Gas.PropsIter
import Verif.Gas.Conv
import Verif.Gas.PropsArgs
import Verif.Gas.Outputs
import Verif.Gas.StateLemmas
import Verif.Gas.Rows
import Verif.Gas.PropsState
import Verif.Gas.PropsInverse
import Verif.Gas.PropsThermo
import Verif.Gas.PropsUnits
import Verif.Gas.PropsCalls
import Verif.Gas.PropsShort
import Verif.Gas.PropsRange
import Verif.Gas.PropsMore
import Verif.Gas.Examples
import Verif.Gas.Mix
import Verif.Gas.MixSpec
import Verif.Gas.PropsMix
import Verif.Gas.PropsMixture
import Verif.Gas.PropsMixMore
import Verif.Igt.Model
import Verif.Igt.Spec
import Verif.Igt.Lemmas
import Verif.Igt.PropsArith
import Verif.Igt.PropsMeasure
import Verif.Igt.PropsAccess
import Verif.Igt.PropsParse
import Verif.Igt.Thermo
import Verif.Igt.SpecThermo
import Verif.Igt.ThermoLemmas
import Verif.Igt.PropsSums
import Verif.Igt.ThermoArgs
import Verif.Igt.Shapes
import Verif.Igt.ThermoState
import Verif.Igt.PropsGiven
import Verif.Igt.PropsAnswered
import Verif.Igt.PropsIdent
import Verif.Igt.PropsInverse
import Verif.Igt.PropsEntropy
import Verif.Igt.PropsReturns
import Verif.Igt.ThermoExamples
import Verif.Igt.GivenExamples
import Verif.Igt.Static
import Verif.Igt.SpecStatic
import Verif.Igt.PropsStatic
import Verif.Igt.PropsStaticBack
import Verif.Igt.PropsStaticDefects
import Verif.Igt.StaticExamples
import Verif.Igt.PropsRange
import Verif.Igt.RangeExamples
import Verif.Solve.Model
import Verif.Solve.Spec
import Verif.Solve.PropsArgs
import Verif.Solve.PropsSolve
import Verif.Mp.Poly
import Verif.Mp.Spec
import Verif.Mp.Jet
import Verif.Mp.PropsPoly
import Verif.Mp.Helm
import Verif.Mp.SpecHelm
import Verif.Mp.PropsSat
import Verif.Mp.PropsAo
import Verif.Mp.PropsAr
import Verif.Mp.Thermo
import Verif.Mp.SpecThermo
import Verif.Mp.PropsThermo
import Verif.Mp.Hybrid
import Verif.Mp.PropsHybrid
import Verif.Gas.PropsConst
import Verif.Mp.State
import Verif.Mp.Methods
import Verif.Mp.SpecState
import Verif.Mp.ConvKg
import Verif.Mp.Parse
import Verif.Mp.PropsForms
import Verif.Mp.PropsLever
import Verif.Mp.PropsInvert
import Verif.Mp.Solvers
import Verif.Mp.PropsSolvers
import Verif.Mp.PropsSatCalls
import Verif.Mp.Origin
import Verif.Mp.PropsGiven
import Verif.If97.Model
import Verif.If97.Spec
import Verif.If97.PropsPoly
import Verif.If97.PropsSat
import Verif.If97.PropsGibbs
import Verif.If97.PropsHelm
import Verif.If97.Calls
import Verif.If97.PropsCalls
import Verif.If97.PropsSteam
import Verif.Mp.PropsAccurate
import Verif.Mp.AccurateCases
import Verif.Mp.SpecUnits
import Verif.Mp.PropsUnits
import Verif.Mp.PropsBundle
import Verif.Mp.PropsIdent
import Verif.Mp.SpecCv
import Verif.Mp.PropsCv
import Verif.Mp.SpecHeat
import Verif.Mp.PropsHeat
import Verif.Mp.PropsPhase
import Verif.Mp.PropsAnswer
import Verif.Mp.PhaseCases
import Verif.Mp.Quality
import Verif.Mp.PropsQuality
import Verif.Mp.PropsCaller
import Verif.Mp.CallerCases
import Verif.Mp.PropsArray
import Verif.Mp.PropsAssemble
import Verif.Mp.PropsSize
import Verif.Mp.ArrayCases
import Verif.If97.Sat
import Verif.If97.PropsSatMethods
import Verif.If97.SatExamples
import Verif.If97.Inverse
import Verif.If97.PropsInverse
import Verif.If97.PropsInverseS
import Verif.If97.InverseExamples
import Verif.Data.Repair
import Verif.Data.RepairSpec
import Verif.Data.RepairLemmas
import Verif.Data.PropsRepair
import Verif.Data.UpdateLemmas
import Verif.Data.PropsUpdate
import Verif.Data.UpdateExamples
import Verif.Shipped.PropsGas
import Verif.Shipped.PropsFall
import Verif.Shipped.PropsRound
import Verif.Shipped.Examples
import Verif.Mp.PropsMend
import Verif.Shipped.MpBasic
import Verif.Shipped.MpData
import Verif.Shipped.MpCurves
import Verif.Shipped.MpDome
import Verif.Shipped.MpGood
import Verif.Shipped.MpFluid
import Verif.Shipped.MpTriple
import Verif.Shipped.PropsMp
import Verif.Shipped.MpExamples
import Verif.Shipped.MassSpec
import Verif.Shipped.Mass
import Verif.Shipped.PropsMass
import Verif.Shipped.MassExamples
import Verif.Shipped.Distinct
import Verif.Shipped.PropsMixes
import Verif.Shipped.MixExamples
import Verif.Mp.Dilute
import Verif.Mp.PropsDilute
import Verif.Mp.DiluteCv
import Verif.Shipped.SpecDilute
import Verif.Shipped.MpDilute
import Verif.Shipped.PropsDilute
import Verif.Shipped.DiluteExamples
import Verif.Mp.Constants
import Verif.Mp.PropsConstants
import Verif.If97.PropsConstants
import Verif.Shipped.PropsCritical
import Verif.Igt.Listing
import Verif.Igt.PropsListing
import Verif.Gas.PropsInverseLog
import Verif.Shipped.Logs
import Verif.Shipped.Entropy
import Verif.Shipped.EntropyGrowth
import Verif.Shipped.PropsEntropy
import Verif.Shipped.PropsEntropyFall
import Verif.Shipped.EntropyExamples
import Verif.Float.Arith
import Verif.Float.Near
import Verif.Float.Units
import Verif.Float.SpecUnits
import Verif.Float.PropsUnits
import Verif.Float.Abs
import Verif.Float.PropsScale
import Verif.Float.Examples
import Verif.Shipped.Sizes
import Verif.Float.Sum
import Verif.Float.Gas
import Verif.Float.GasExact
import Verif.Float.SpecGas
import Verif.Float.GasUnits
import Verif.Float.GasTerms
import Verif.Float.PropsGas
import Verif.Float.GasExamples
import Verif.Float.Law
import Verif.Float.PropsLaw
import Verif.Float.LawExamples
import Verif.Gas.PropsNewton
import Verif.Gas.PropsSettle
import Verif.Shipped.Slopes
import Verif.Shipped.SlopesSound
import Verif.Shipped.Newton
import Verif.Shipped.SpecConverge
import Verif.Shipped.PropsConverge
import Verif.Shipped.PropsSteady
import Verif.Shipped.ConvergeExamples
import Verif.Gas.SelfTest
import Verif.Gas.PropsSelfTest
import Verif.Mp.SelfTest
import Verif.Mp.PropsSelfTest
import Verif.Shipped.PropsSelfTest
import Verif.Shipped.PropsMpSelfTest
import Verif.Float.GasCalls
import Verif.Float.PropsGasCalls
import Verif.Float.GasCallsExamples
import Verif.Data.Crash
import Verif.Data.CrashSpec
import Verif.Data.PropsCrash
import Verif.Data.CrashExamples
import Verif.Data.Session
import Verif.Data.PropsSession
import Verif.Data.SessionExamples
import Verif.Float.Poly
import Verif.Float.SpecPoly
import Verif.Float.PropsPoly
import Verif.Float.Poly2
import Verif.Float.PropsPoly2
import Verif.Float.PolyExamples
import Verif.Float.Residual
import Verif.Float.SpecResidual
import Verif.Float.PropsResidual
import Verif.Float.ShippedResidual
import Verif.Float.ResidualExamples
import Verif.Float.Ideal
import Verif.Float.SpecIdeal
import Verif.Float.PropsIdeal
import Verif.Float.ShippedIdeal
import Verif.Float.IdealExamples
import Verif.Float.Sat
import Verif.Float.SpecSat
import Verif.Float.PropsSat
import Verif.Float.ShippedSat
import Verif.Float.SatExamples
import Verif.Float.Iter
import Verif.Float.PropsIter
import Verif.Float.ShippedIter
import Verif.Float.IterExamples
import Verif.Float.Mix
import Verif.Float.SpecMix
import Verif.Float.PropsMix
import Verif.Float.MixModel
import Verif.Float.MixCall
import Verif.Float.PropsMixCall
import Verif.Float.MixLaw
import Verif.Float.PropsMixLaw
