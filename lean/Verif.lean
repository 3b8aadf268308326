import Verif.Props.Maps
import Verif.Props.Components
import Verif.Props.Kaon
import Verif.Props.OtherModels
import Verif.Props.Nucleon
import Verif.Props.CrossSections
import Verif.Props.Parameters
import Verif.Props.Utils
import Verif.Props.Tasks
import Verif.Props.Pipelines
import Verif.Props.PipelinesRun
import Verif.Props.Decomposition
import Verif.Props.Residual
import Verif.Props.AlternateMaps
import Verif.Props.EndToEnd
import Verif.Props.Scripts
import Verif.Props.Runs
import Verif.Props.RunsNucleon
import Verif.Props.FitScripts
import Verif.Props.PlotComplex
import Verif.Props.Continuity
import Verif.Props.Content
import Verif.Props.SingleFit
import Verif.Props.OtherFit
import Verif.Props.BoundaryValues
import Verif.Props.FallOff
import Verif.Props.PlotFit
import Verif.Model.PlotSingle
import Verif.Props.PlotSingle
import Verif.Spec.Analytic
import Verif.Lemmas.Analytic
import Verif.Lemmas.AnalyticNucleon
import Verif.Props.Analytic
import Verif.Conformance.Ball
import Verif.Conformance.Eval
import Verif.Conformance.EvalCS
import Verif.Conformance.EvalNucleon
import Verif.Conformance.KaonUAModel
import Verif.Conformance.KaonUAModelB
import Verif.Conformance.KaonUAModelSimplified
import Verif.Conformance.NucleonCrossSection
import Verif.Conformance.NucleonUAModel
import Verif.Conformance.NucleonUAModelOld
import Verif.Conformance.ParameterClasses
import Verif.Conformance.ScalarCrossSection
import Verif.Conformance.Small
import Verif.Model.Files
import Verif.Model.DataFiles
import Verif.Model.Shipped
import Verif.Spec.Files
import Verif.Lemmas.Files
import Verif.Lemmas.FilesTables
import Verif.Lemmas.FilesFacts
import Verif.Lemmas.Shipped
import Verif.Lemmas.ShippedEval
import Verif.Props.Shipped
import Verif.Spec.Rounds
import Verif.Lemmas.Rounds
import Verif.Lemmas.RoundsRun
import Verif.Props.Rounds
import Verif.Lemmas.BestFit
import Verif.Props.BestFit
import Verif.Spec.MainRuns
import Verif.Lemmas.PipelinesGood
import Verif.Lemmas.MainRuns
import Verif.Props.MainRuns
import Verif.Spec.Within
import Verif.Spec.Config
import Verif.Lemmas.Config
import Verif.Lemmas.Within
import Verif.Lemmas.WithinWitness
import Verif.Props.Within
import Verif.Spec.MainNucleon
import Verif.Lemmas.MainNucleon
import Verif.Props.MainNucleon
import Verif.Lemmas.Frame
import Verif.Spec.Interrupted
import Verif.Lemmas.Interrupted
import Verif.Lemmas.InterruptedRun
import Verif.Lemmas.InterruptedWitness
import Verif.Props.Interrupted
import Verif.Props.ReportText
import Verif.Spec.MainStopped
import Verif.Lemmas.MainStopped
import Verif.Lemmas.MainStoppedWitness
import Verif.Props.MainStopped
import Verif.Model.Kinds
import Verif.Model.KindsKaon
import Verif.Model.KindsNucleon
import Verif.Model.KindsUtils
import Verif.Spec.Kinds
import Verif.Lemmas.Kinds
import Verif.Lemmas.KindsKaon
import Verif.Lemmas.KindsNucleon
import Verif.Lemmas.KindsUtils
import Verif.Lemmas.KindsFit
import Verif.Props.Kinds
import Verif.Spec.ContinuityNucleon
import Verif.Lemmas.ContinuityNucleon
import Verif.Lemmas.ContinuityNucleonWitness
import Verif.Props.ContinuityNucleon
import Verif.Conformance.CommonUtils
import Verif.Spec.Identify
import Verif.Lemmas.Identify
import Verif.Props.Identify
import Verif.Spec.NucleonContent
import Verif.Lemmas.NucleonContent
import Verif.Props.NucleonContent
import Verif.Model.FloatMap
import Verif.Spec.FloatMap
import Verif.Lemmas.FloatMap
import Verif.Lemmas.FloatRounding
import Verif.Lemmas.FloatExact
import Verif.Props.FloatMap
import Verif.Spec.Strengths
import Verif.Lemmas.ValueObject
import Verif.Lemmas.Strengths
import Verif.Props.Strengths
import Verif.Spec.Units
import Verif.Lemmas.Units
import Verif.Lemmas.UnitsBounds
import Verif.Props.Units
import Verif.Props.UnitsBounds
import Verif.Spec.BestCouplings
import Verif.Lemmas.LeastSquares
import Verif.Lemmas.BestCouplings
import Verif.Props.BestCouplings
import Verif.Spec.BestResonances
import Verif.Lemmas.BestResonances
import Verif.Lemmas.BestResonancesWitness
import Verif.Props.BestResonances
import Verif.Spec.NoWorse
import Verif.Lemmas.NoWorse
import Verif.Lemmas.NoWorseRun
import Verif.Lemmas.NoWorseCharged
import Verif.Lemmas.NoWorseWitness
import Verif.Lemmas.ChargedWitness
import Verif.Lemmas.ChargedRun
import Verif.Props.NoWorse
