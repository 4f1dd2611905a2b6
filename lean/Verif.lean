import Verif.Core.Outcome
import Verif.Core.Lemmas
import Verif.Poly.Props
import Verif.Numeric.Props
import Verif.Kinetics.Props
import Verif.Kinetics.OrderProps
import Verif.Kinetics.PeriodProps
import Verif.Kinetics.OrderTransient
import Verif.Kinetics.SymmetryProps
import Verif.Diffusion.Props
import Verif.Heat.Props
import Verif.CPM.Props
import Verif.CPM.RayProps
import Verif.Eigen.Props
import Verif.Solve.Props
import Verif.Solve.TransportProps
import Verif.Mesh.BoundaryProps
import Verif.Calc.Props
import Verif.Calc.HeatProps
import Verif.Calc.CoupledProps
import Verif.Calc.DrivenProps
import Verif.Solve.Safe
import Verif.Input.TextProps
import Verif.Input.ListProps
import Verif.Input.MeshProps
import Verif.Input.BlockProps
import Verif.Input.SettingProps
import Verif.Input.DataProps
import Verif.Input.CompleteProps
import Verif.Input.NegativeProps
import Verif.Input.RunProps
import Verif.Input.UnevenProps
import Verif.Heat.Compare
import Verif.Input.Compare
import Verif.Input.CompareProps
import Verif.Output.Props
import Verif.Output.ReportProps
import Verif.Input.LayoutProps
import Verif.Input.CriticalProps
import Verif.Input.PoorerRead
import Verif.Input.PoorerProps
import Verif.Input.SlimFile
import Verif.Input.BareFile
import Verif.Input.MediumRead
import Verif.Input.MediumProps
import Verif.Input.TurnFile
import Verif.Input.MirrorRead
import Verif.Input.MirrorProps
import Verif.Input.DrivenProps
import Verif.Output.DrivenProps
import Verif.Output.TransientProps
import Verif.Output.TwinProps
import Verif.Output.VectorProps
import Verif.Output.FigureProps
import Verif.Output.CriticalProps
import Verif.Calc.PairLast
import Verif.Input.CoupledSpec
import Verif.Input.CoupledRead
import Verif.Input.DuoFile
import Verif.Input.CoupledFileProps
import Verif.Output.CoupledSpec
import Verif.Output.CoupledProps
import Verif.Echo.Data
import Verif.Echo.Model
import Verif.Echo.Lemmas
import Verif.Echo.Spec
import Verif.Echo.Loud
import Verif.Echo.Props
import Verif.Echo.TextSpec
import Verif.Echo.Said
import Verif.Echo.SaidData
import Verif.Echo.TextUnique
import Verif.Echo.TextProps
import Verif.Gen.Data
import Verif.Gen.Model
import Verif.Gen.Spec
import Verif.Gen.Lemmas
import Verif.Gen.Fit
import Verif.Gen.Text
import Verif.Gen.Print
import Verif.Gen.Read
import Verif.Gen.Chain
import Verif.Gen.Parabola
import Verif.Gen.Props
import Verif.Library.Model
import Verif.Library.Spec
import Verif.Library.Props
